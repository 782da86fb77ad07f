import Verif.Model.NavierStokesLoop
import Verif.Spec.NavierStokesLoop
import Verif.Props.BulkTime

/-!
# C174, C175: the nonlinear iteration of the Navier-Stokes example
-/

namespace PolyDiM

open Spec

/-- The hypotheses on the calls: regular systems are solved, and the assembled convection at `w` is the linearisation of the quadratic term `b` (what C173 proves on each cell and C176 on the mesh):
matrix and strong part together give `b(w, x) + b(x, w)`, the right-hand side `b(w, w)`. The iterates stay in a set `good` on which the matrix of the step is regular. -/
structure NlCallsAre (f : NlCalls ℝ) (N : Nat) (S : StokesParts ℝ) (b : (Nat → ℝ) →ₗ[ℝ] (Nat → ℝ) →ₗ[ℝ] (Nat → ℝ)) (C : List ℝ → ConvectionParts ℝ) (good : List ℝ → Prop) : Prop where
  solve : SolvesSystems N f.solve
  sqrt : f.sqrt = Real.sqrt
  convection : ∀ w : List ℝ, w.length = N → f.convection w = .ok (C w)
  matrix : ∀ w x : List ℝ, w.length = N → x.length = N → ∀ i < N,
    rowTimes (C w).matrix N (fun j => x.getD j 0) i + rowTimes (C w).strong S.dirichlet.length (fun j => S.dirichlet.getD j 0) i
      = b (withStrong N (fun j => w.getD j 0) fun j => S.dirichlet.getD j 0) (withStrong N (fun j => x.getD j 0) fun j => S.dirichlet.getD j 0) i
        + b (withStrong N (fun j => x.getD j 0) fun j => S.dirichlet.getD j 0) (withStrong N (fun j => w.getD j 0) fun j => S.dirichlet.getD j 0) i
  rhs : ∀ w : List ℝ, w.length = N → ∀ i < N,
    ventry (C w).rhs i = b (withStrong N (fun j => w.getD j 0) fun j => S.dirichlet.getD j 0) (withStrong N (fun j => w.getD j 0) fun j => S.dirichlet.getD j 0) i
  stokes : ∀ x : Nat → ℝ, (∀ i < N, rowTimes S.matrix N x i = 0) → ∀ i < N, x i = 0
  regular : ∀ w : List ℝ, w.length = N → good w → ∀ x : Nat → ℝ, (∀ i < N, rowTimes ((C w).matrix ++ S.matrix) N x i = 0) → ∀ i < N, x i = 0
  start : good (f.solve S.matrix S.rhs)
  next : ∀ w : List ℝ, w.length = N → good w → good (f.solve (convectionSystem S (C w)).1 (convectionSystem S (C w)).2)

variable {f : NlCalls ℝ} {N : Nat} {S : StokesParts ℝ} {b : (Nat → ℝ) →ₗ[ℝ] (Nat → ℝ) →ₗ[ℝ] (Nat → ℝ)} {C : List ℝ → ConvectionParts ℝ} {good : List ℝ → Prop}

theorem arrayNorm_eq (v : Nat → ℝ) : arrayNorm Real.sqrt N v = euclidNorm N v := by
  unfold arrayNorm euclidNorm
  congr 1
  rw [Finset.sum_congr rfl fun i _ => pow_two (v i), range_sum]

theorem rowTimes_append (A B : List (Nat × Nat × ℝ)) (x : Nat → ℝ) (i : Nat) : rowTimes (A ++ B) N x i = rowTimes A N x i + rowTimes B N x i := by
  unfold rowTimes
  simp only [entry_append, add_mul, Finset.sum_add_distrib]

/-- One step from `w`: the linear system is solved, and the residual of the nonlinear problem that is left is the quadratic term of the change. -/
theorem nlStep_ok (hf : NlCallsAre f N S b C good) {w : List ℝ} (hw : w.length = N) (hg : good w) :
    ∃ u, f.solve (convectionSystem S (C w)).1 (convectionSystem S (C w)).2 = u ∧ u.length = N ∧ good u ∧
      arrayNorm f.sqrt N (bulkResidual (convectionSystem S (C w)).1 (convectionSystem S (C w)).2 u) = 0 ∧
      ∀ i < N, quadraticResidual S.matrix S.rhs b N (fun j => S.dirichlet.getD j 0) (fun j => u.getD j 0) i
        = b (withStrong N (fun j => u.getD j 0 - w.getD j 0) fun _ => 0) (withStrong N (fun j => u.getD j 0 - w.getD j 0) fun _ => 0) i := by
  obtain ⟨h1, h2⟩ := hf.solve (convectionSystem S (C w)).1 (convectionSystem S (C w)).2 (hf.regular w hw hg)
  refine ⟨_, rfl, h1, hf.next w hw hg, ?_, fun i hi => ?_⟩
  · rw [hf.sqrt]
    unfold arrayNorm
    have : ∀ i ∈ List.range N, bulkResidual (convectionSystem S (C w)).1 (convectionSystem S (C w)).2 (f.solve (convectionSystem S (C w)).1 (convectionSystem S (C w)).2) i
        * bulkResidual (convectionSystem S (C w)).1 (convectionSystem S (C w)).2 (f.solve (convectionSystem S (C w)).1 (convectionSystem S (C w)).2) i = (0 : ℝ) := by
      intro i hi
      rw [bulkResidual_eq, h1]
      unfold rowTimes
      rw [h2 i (List.mem_range.1 hi), sub_self, mul_zero]
    rw [List.map_congr_left this]
    simp
  · set u := f.solve (convectionSystem S (C w)).1 (convectionSystem S (C w)).2 with hu
    have e : rowTimes ((C w).matrix ++ S.matrix) N (fun j => u.getD j 0) i = ventry (convectionSystem S (C w)).2 i := h2 i hi
    have e2 : ventry (convectionSystem S (C w)).2 i = ventry (C w).rhs i - rowTimes (C w).strong S.dirichlet.length (fun j => S.dirichlet.getD j 0) i + ventry S.rhs i := by
      unfold convectionSystem
      dsimp only
      rw [ventry_append, ventry_append]
      congr 1
      rw [sub_eq_add_neg]
      congr 1
      split_ifs with h
      · rw [ventry_subtract]; rfl
      · have : S.dirichlet.length = 0 := by omega
        rw [this]
        simp [ventry, rowTimes]
    rw [rowTimes_append, e2, hf.rhs w hw i hi] at e
    have e3 := hf.matrix w u hw h1 i hi
    have hsplit : withStrong N (fun j => u.getD j 0 - w.getD j 0) (fun _ => 0)
        = withStrong N (fun j => u.getD j 0) (fun j => S.dirichlet.getD j 0) - withStrong N (fun j => w.getD j 0) (fun j => S.dirichlet.getD j 0) := by
      funext k
      simp only [withStrong, Pi.sub_apply]
      split_ifs <;> simp
    unfold quadraticResidual
    rw [hsplit]
    simp only [map_sub, LinearMap.sub_apply, Pi.sub_apply]
    linarith

/-- What the loop leaves: either the number of iterations has no value, or the last pass met the tolerance on the change. -/
theorem nlLoop_result (hf : NlCallsAre f N S b C good) (hN : 0 < N) (tol : NlTolerances ℝ) (r0 s0 : ℝ) (n : Nat) : ∀ (l : Nat) (s : NlState ℝ), s.previous.length = N → good s.previous → s.iterations = none →
    ∃ s', nlLoop f N S tol r0 s0 n l s = .ok s' ∧ s'.previous.length = N ∧
      ((s'.iterations = none) ∨ (s'.residual = some 0 ∧ ∃ m, ∃ w : List ℝ, s'.iterations = some m ∧ l < m ∧ m ≤ l + n ∧ w.length = N ∧
        euclidNorm N (fun j => s'.previous.getD j 0 - w.getD j 0) ≤ tol.relChange * s0 + tol.absChange ∧
        ∀ i < N, quadraticResidual S.matrix S.rhs b N (fun j => S.dirichlet.getD j 0) (fun j => s'.previous.getD j 0) i
          = b (withStrong N (fun j => s'.previous.getD j 0 - w.getD j 0) fun _ => 0) (withStrong N (fun j => s'.previous.getD j 0 - w.getD j 0) fun _ => 0) i)) := by
  induction n with
  | zero => intro l s hs _ hi; exact ⟨s, rfl, hs, .inl hi⟩
  | succ n ih =>
    intro l s hs hg hi
    obtain ⟨u, hu, hl, hgu, hres, hq⟩ := nlStep_ok hf hs hg
    unfold nlLoop
    rw [hf.convection _ hs]
    simp only [except_ok_bind, if_pos hN, hu]
    split_ifs with h
    · refine ⟨_, rfl, hl, .inr ⟨by rw [hres], l + 1, s.previous, rfl, by omega, by omega, hs, ?_, hq⟩⟩
      have := h.2
      rw [hf.sqrt, arrayNorm_eq] at this
      exact this
    · obtain ⟨s', h1, h2, h3⟩ := ih (l + 1) ⟨u, some _, s.iterations⟩ hl hgu hi
      refine ⟨s', h1, h2, ?_⟩
      rcases h3 with h3 | ⟨h4, m, w, h5, h6, h7, h8⟩
      · exact .inl h3
      · exact .inr ⟨h4, m, w, h5, by omega, by omega, h8⟩

/-- **C174.** A result of the run comes from a pass of Newton's method: the residual of the nonlinear problem `A u + b(u, u) = f` at the solution is `b(δ, δ)` for the last change `δ`,
whose norm is within the tolerance on the change, relative to the Stokes solution. -/
theorem C174_newton (hf : NlCallsAre f N S b C good) (hN : 0 < N) (tol : NlTolerances ℝ) (max : Nat) {R : NlResult ℝ} (hR : nlRun f N S tol max = .ok R) :
    R.solution.length = N ∧ 1 ≤ R.iterations ∧ R.iterations ≤ max ∧
      ∃ u₀ w : List ℝ, u₀.length = N ∧ (∀ i < N, rowTimes S.matrix N (fun j => u₀.getD j 0) i = ventry S.rhs i) ∧ w.length = N ∧
        euclidNorm N (fun j => R.solution.getD j 0 - w.getD j 0) ≤ tol.relChange * euclidNorm N (fun j => u₀.getD j 0) + tol.absChange ∧
        ∀ i < N, quadraticResidual S.matrix S.rhs b N (fun j => S.dirichlet.getD j 0) (fun j => R.solution.getD j 0) i
          = b (withStrong N (fun j => R.solution.getD j 0 - w.getD j 0) fun _ => 0) (withStrong N (fun j => R.solution.getD j 0 - w.getD j 0) fun _ => 0) i := by
  obtain ⟨h1, h2⟩ := hf.solve S.matrix S.rhs hf.stokes
  unfold nlRun at hR
  simp only [if_pos hN] at hR
  obtain ⟨s, hs, hl, hcase⟩ := nlLoop_result hf hN tol (arrayNorm f.sqrt N (bulkResidual S.matrix S.rhs (f.solve S.matrix S.rhs)))
    (arrayNorm f.sqrt N fun i => (f.solve S.matrix S.rhs).getD i 0) max 0 ⟨f.solve S.matrix S.rhs, none, none⟩ h1 hf.start rfl
  rw [hs, except_ok_bind] at hR
  rcases hcase with h | ⟨hr, m, w, hm, h3, h4, hw, h5, h6⟩
  · rw [h] at hR
    simp at hR
  · rw [hr, hm] at hR
    simp only [Except.ok.injEq] at hR
    subst hR
    refine ⟨hl, h3, by simpa using h4, _, w, h1, h2, hw, ?_, h6⟩
    rw [hf.sqrt, arrayNorm_eq] at h5
    exact h5

/-- **C174.** With the tolerance zero on the change, a result solves the nonlinear problem. -/
theorem C174_fixed (hf : NlCallsAre f N S b C good) (hN : 0 < N) {tol : NlTolerances ℝ} (h0 : tol.relChange = 0) (h1 : tol.absChange = 0) (max : Nat) {R : NlResult ℝ}
    (hR : nlRun f N S tol max = .ok R) :
    ∀ i < N, quadraticResidual S.matrix S.rhs b N (fun j => S.dirichlet.getD j 0) (fun j => R.solution.getD j 0) i = 0 := by
  obtain ⟨-, -, -, u₀, w, -, -, -, hc, hq⟩ := C174_newton hf hN tol max hR
  rw [h0, h1, zero_mul, add_zero] at hc
  have hz : ∀ j ∈ Finset.range N, (R.solution.getD j 0 - w.getD j 0) ^ 2 = 0 := by
    have := Real.sqrt_eq_zero'.1 (le_antisymm hc (Real.sqrt_nonneg _))
    exact (Finset.sum_eq_zero_iff_of_nonneg fun j _ => sq_nonneg _).1 (le_antisymm this (Finset.sum_nonneg fun j _ => sq_nonneg _))
  have hv : withStrong N (fun j => R.solution.getD j 0 - w.getD j 0) (fun _ => 0) = 0 := by
    funext k
    unfold withStrong
    split_ifs with h
    · exact pow_eq_zero_iff (two_ne_zero) |>.1 (hz k (Finset.mem_range.2 h))
    · rfl
  intro i hi
  rw [hq i hi, hv]
  simp

/-- What C175 asks for: the stopping test is one on the nonlinear problem. -/
def StopsOnResidual (f : NlCalls ℝ) (N : Nat) (S : StokesParts ℝ) (b : (Nat → ℝ) →ₗ[ℝ] (Nat → ℝ) →ₗ[ℝ] (Nat → ℝ)) (tol : NlTolerances ℝ) (max : Nat) : Prop :=
  ∃ R, nlRun f N S tol max = .ok R ∧ R.iterations ≤ max ∧
    (R.iterations < max → euclidNorm N (fun i => quadraticResidual S.matrix S.rhs b N (fun j => S.dirichlet.getD j 0) (fun j => R.solution.getD j 0) i) ≤ tol.absResidual
      + tol.relResidual * euclidNorm N (fun i => rowTimes S.matrix N (fun j => (f.solve S.matrix S.rhs).getD j 0) i - ventry S.rhs i))

/-- **C175, in part.** What holds: a result carries a number of iterations between one and the maximum; the residual that it reports is zero, since it is that of the linear system which
was solved just before. -/
theorem C175_report_partial (hf : NlCallsAre f N S b C good) (hN : 0 < N) (tol : NlTolerances ℝ) (max : Nat) {R : NlResult ℝ} (hR : nlRun f N S tol max = .ok R) :
    1 ≤ R.iterations ∧ R.iterations ≤ max ∧ R.residual = 0 := by
  obtain ⟨h1, h2⟩ := hf.solve S.matrix S.rhs hf.stokes
  unfold nlRun at hR
  simp only [if_pos hN] at hR
  obtain ⟨s, hs, hl, hcase⟩ := nlLoop_result hf hN tol (arrayNorm f.sqrt N (bulkResidual S.matrix S.rhs (f.solve S.matrix S.rhs)))
    (arrayNorm f.sqrt N fun i => (f.solve S.matrix S.rhs).getD i 0) max 0 ⟨f.solve S.matrix S.rhs, none, none⟩ h1 hf.start rfl
  rw [hs, except_ok_bind] at hR
  rcases hcase with h | ⟨hr, m, w, hm, h3, h4, -⟩
  · rw [h] at hR
    simp at hR
  · rw [hr, hm] at hR
    simp only [Except.ok.injEq] at hR
    subst hR
    exact ⟨h3, by simpa using h4, rfl⟩

/-- The equation `u + u * u = 2` with one unknown, as the example would iterate on it. -/
noncomputable def squareCalls : NlCalls ℝ where
  solve := scalarSolve
  convection := fun w => .ok ⟨[(0, 0, 2 * w.getD 0 0)], [], [(0, w.getD 0 0 * w.getD 0 0)]⟩
  sqrt := Real.sqrt

/-- Its linear part and right-hand side. -/
def squareStokes : StokesParts ℝ := ⟨[(0, 0, 1)], [(0, 2)], []⟩

/-- Its quadratic term. -/
noncomputable def squareForm : (Nat → ℝ) →ₗ[ℝ] (Nat → ℝ) →ₗ[ℝ] (Nat → ℝ) :=
  LinearMap.mk₂ ℝ (fun x y _ => x 0 * y 0) (by intros; funext; simp [add_mul]) (by intros; funext; simp [mul_assoc]) (by intros; funext; simp [mul_add])
    (by intros; funext; simp [mul_left_comm])

theorem square_step (w : List ℝ) : squareCalls.solve (convectionSystem squareStokes ⟨[(0, 0, 2 * w.getD 0 0)], [], [(0, w.getD 0 0 * w.getD 0 0)]⟩).1
    (convectionSystem squareStokes ⟨[(0, 0, 2 * w.getD 0 0)], [], [(0, w.getD 0 0 * w.getD 0 0)]⟩).2 = [(w.getD 0 0 * w.getD 0 0 + 2) / (2 * w.getD 0 0 + 1)] := by
  simp [squareCalls, scalarSolve, convectionSystem, squareStokes, ventry, entry]

theorem square_start : squareCalls.solve squareStokes.matrix squareStokes.rhs = [2] := by
  simp [squareCalls, scalarSolve, squareStokes, ventry, entry]

theorem square_calls : NlCallsAre squareCalls 1 squareStokes squareForm (fun w => ⟨[(0, 0, 2 * w.getD 0 0)], [], [(0, w.getD 0 0 * w.getD 0 0)]⟩) (fun w => 0 ≤ w.getD 0 0) where
  solve := scalarSolve_solves
  sqrt := rfl
  convection _ _ := rfl
  matrix w x _ _ i hi := by
    obtain rfl : i = 0 := by omega
    simp [rowTimes, entry, squareForm, withStrong, squareStokes]
    ring
  rhs w _ i hi := by
    obtain rfl : i = 0 := by omega
    simp [ventry, squareForm, withStrong]
  stokes x h i hi := by
    obtain rfl : i = 0 := by omega
    simpa [rowTimes, entry, squareStokes] using h 0 (by norm_num)
  regular w _ hg x h i hi := by
    obtain rfl : i = 0 := by omega
    have := h 0 (by norm_num)
    simp only [rowTimes, squareStokes, List.cons_append, List.nil_append, entry, List.map_cons, List.map_nil, List.sum_cons, List.sum_nil, Finset.sum_range_one, and_self, if_true,
      add_zero] at this
    rcases mul_eq_zero.1 this with h | h
    · linarith
    · exact h
  start := by rw [square_start]; norm_num
  next w _ hg := by
    rw [square_step]
    show 0 ≤ _
    have : 0 ≤ w.getD 0 0 := hg
    simp only [List.getD_cons_zero]
    positivity

/-- The first pass on the equation: the solution 6/5, with the change 4/5. -/
theorem square_pass (tol : NlTolerances ℝ) (r0 s0 : ℝ) (n : Nat) : nlLoop squareCalls 1 squareStokes tol r0 s0 (n + 1) 0 ⟨[2], none, none⟩
    = if 0 ≤ tol.relResidual * r0 + tol.absResidual ∧ 4 / 5 ≤ tol.relChange * s0 + tol.absChange then .ok ⟨[6 / 5], some 0, some 1⟩
      else nlLoop squareCalls 1 squareStokes tol r0 s0 n 1 ⟨[6 / 5], some 0, none⟩ := by
  have hs := square_step [2]
  have hv : (([2] : List ℝ).getD 0 0 * ([2] : List ℝ).getD 0 0 + 2) / (2 * ([2] : List ℝ).getD 0 0 + 1) = 6 / 5 := by norm_num
  rw [hv] at hs
  obtain ⟨u, hu, -, -, hr, -⟩ := nlStep_ok square_calls (w := [2]) rfl (by norm_num)
  have hu' : u = [6 / 5] := by rw [← hu]; exact hs
  subst hu'
  have hc : arrayNorm squareCalls.sqrt 1 (fun i => ([6 / 5] : List ℝ).getD i 0 - ([2] : List ℝ).getD i 0) = 4 / 5 := by
    show arrayNorm Real.sqrt 1 _ = _
    rw [arrayNorm_eq]
    unfold euclidNorm
    rw [Finset.sum_range_one, Real.sqrt_sq_eq_abs]
    norm_num [abs_of_neg]
  conv_lhs => unfold nlLoop
  rw [show squareCalls.convection ([2] : List ℝ) = .ok ⟨[(0, 0, 2 * ([2] : List ℝ).getD 0 0)], [], [(0, ([2] : List ℝ).getD 0 0 * ([2] : List ℝ).getD 0 0)]⟩ from rfl]
  simp only [except_ok_bind, if_pos Nat.zero_lt_one, hs, hc]
  rw [hr]

/-- **C175.** What does not hold: the test on the residual is met by every solution of the linear system. The iteration stops after one pass of three, with the tolerance zero on the
residual, although the residual of the nonlinear problem is 16/25. -/
theorem C175_residual : nlRun squareCalls 1 squareStokes ⟨0, 0, 0, 1⟩ 3 = .ok ⟨[6 / 5], 0, 1⟩ ∧
    quadraticResidual squareStokes.matrix squareStokes.rhs squareForm 1 (fun _ => 0) (fun j => ([6 / 5] : List ℝ).getD j 0) 0 = 16 / 25 ∧
    ¬StopsOnResidual squareCalls 1 squareStokes squareForm ⟨0, 0, 0, 1⟩ 3 := by
  have hrun : nlRun squareCalls 1 squareStokes ⟨0, 0, 0, 1⟩ 3 = .ok ⟨[6 / 5], 0, 1⟩ := by
    unfold nlRun
    simp only [if_pos Nat.zero_lt_one, square_start]
    rw [square_pass, if_pos (by norm_num), except_ok_bind]
  have hq : quadraticResidual squareStokes.matrix squareStokes.rhs squareForm 1 (fun _ => 0) (fun j => ([6 / 5] : List ℝ).getD j 0) 0 = 16 / 25 := by
    norm_num [quadraticResidual, squareStokes, squareForm, rowTimes, entry, ventry, withStrong]
  refine ⟨hrun, hq, ?_⟩
  rintro ⟨R, hR, -, h⟩
  rw [hrun] at hR
  obtain rfl := Except.ok.inj hR
  have := h (by norm_num)
  rw [zero_mul, add_zero] at this
  unfold euclidNorm at this
  rw [Finset.sum_range_one, show (fun j => squareStokes.dirichlet.getD j 0) = fun _ => (0 : ℝ) by funext j; simp [squareStokes]] at this
  dsimp only at this
  rw [hq, Real.sqrt_sq_eq_abs] at this
  norm_num [abs_of_pos] at this

/-- **C175.** What does not hold either: when no pass meets the tolerances, the number of iterations has no value and is read all the same; without any pass this is always so. -/
theorem C175_unset : nlRun squareCalls 1 squareStokes ⟨0, 0, 0, 0⟩ 1 = .error .undefinedBehaviour ∧
    ∀ (f : NlCalls ℝ) (N : Nat) (S : StokesParts ℝ) (tol : NlTolerances ℝ), nlRun f N S tol 0 = .error .undefinedBehaviour := by
  constructor
  · unfold nlRun
    simp only [if_pos Nat.zero_lt_one, square_start]
    rw [square_pass, if_neg (by norm_num)]
    rfl
  · intro f N S tol
    rfl

/-- The hypotheses of `C174_newton` and `C175_report_partial` are met by the equation `u + u * u = 2`: with the tolerance one on the change the residual left is the square of the
last change. -/
example : ∃ R, nlRun squareCalls 1 squareStokes ⟨0, 0, 0, 1⟩ 3 = .ok R ∧ R.iterations ≤ 3 ∧ R.residual = 0 ∧ ∃ δ : ℝ, |δ| ≤ 1 ∧
    quadraticResidual squareStokes.matrix squareStokes.rhs squareForm 1 (fun j => squareStokes.dirichlet.getD j 0) (fun j => R.solution.getD j 0) 0 = δ * δ := by
  refine ⟨_, C175_residual.1, by norm_num, rfl, ?_⟩
  obtain ⟨-, -, -, u₀, w, -, -, -, hc, hq⟩ := C174_newton square_calls Nat.zero_lt_one _ _ C175_residual.1
  refine ⟨([6 / 5] : List ℝ).getD 0 0 - w.getD 0 0, ?_, ?_⟩
  · unfold euclidNorm at hc
    rw [Finset.sum_range_one, Real.sqrt_sq_eq_abs] at hc
    simpa using hc
  · rw [hq 0 (by norm_num)]
    simp [squareForm, withStrong]

/-- The equation `u + u * u = 0`, for which the Stokes solution already solves the problem. -/
def restStokes : StokesParts ℝ := ⟨[(0, 0, 1)], [], []⟩

/-- The hypotheses of `C174_fixed` are met by the equation `u + u * u = 0`, with both tolerances on the change zero. -/
example : ∃ R, nlRun squareCalls 1 restStokes ⟨0, 0, 0, 0⟩ 1 = .ok R ∧
    quadraticResidual restStokes.matrix restStokes.rhs squareForm 1 (fun j => restStokes.dirichlet.getD j 0) (fun j => R.solution.getD j 0) 0 = 0 := by
  have h0 : squareCalls.solve restStokes.matrix restStokes.rhs = [0] := by simp [squareCalls, scalarSolve, restStokes, ventry, entry]
  have hstep : ∀ w : List ℝ, squareCalls.solve (convectionSystem restStokes ⟨[(0, 0, 2 * w.getD 0 0)], [], [(0, w.getD 0 0 * w.getD 0 0)]⟩).1
      (convectionSystem restStokes ⟨[(0, 0, 2 * w.getD 0 0)], [], [(0, w.getD 0 0 * w.getD 0 0)]⟩).2 = [w.getD 0 0 * w.getD 0 0 / (2 * w.getD 0 0 + 1)] := by
    intro w
    simp [squareCalls, scalarSolve, convectionSystem, restStokes, ventry, entry]
  have hf : NlCallsAre squareCalls 1 restStokes squareForm (fun w => ⟨[(0, 0, 2 * w.getD 0 0)], [], [(0, w.getD 0 0 * w.getD 0 0)]⟩) (fun w => 0 ≤ w.getD 0 0) :=
    { solve := scalarSolve_solves
      sqrt := rfl
      convection := fun _ _ => rfl
      matrix := square_calls.matrix
      rhs := square_calls.rhs
      stokes := square_calls.stokes
      regular := square_calls.regular
      start := by rw [h0]; norm_num
      next := fun w _ hg => by
        rw [hstep]
        have : 0 ≤ w.getD 0 0 := hg
        simp only [List.getD_cons_zero]
        positivity }
  have hrun : nlRun squareCalls 1 restStokes ⟨0, 0, 0, 0⟩ 1 = .ok ⟨[0], 0, 1⟩ := by
    obtain ⟨u, hu, -, -, hr, -⟩ := nlStep_ok hf (w := [0]) rfl (by norm_num)
    have hs := hstep [0]
    rw [show (([0] : List ℝ).getD 0 0 * ([0] : List ℝ).getD 0 0 / (2 * ([0] : List ℝ).getD 0 0 + 1)) = 0 by norm_num] at hs
    have hu' : u = [0] := by rw [← hu]; exact hs
    subst hu'
    have hc : arrayNorm squareCalls.sqrt 1 (fun i => ([0] : List ℝ).getD i 0 - ([0] : List ℝ).getD i 0) = 0 := by
      show arrayNorm Real.sqrt 1 _ = _
      simp [arrayNorm]
    unfold nlRun
    simp only [if_pos Nat.zero_lt_one, h0]
    unfold nlLoop
    rw [show squareCalls.convection ([0] : List ℝ) = .ok ⟨[(0, 0, 2 * ([0] : List ℝ).getD 0 0)], [], [(0, ([0] : List ℝ).getD 0 0 * ([0] : List ℝ).getD 0 0)]⟩ from rfl]
    simp only [except_ok_bind, if_pos Nat.zero_lt_one, hs, hc]
    rw [hr, if_pos (by norm_num)]
    rfl
  exact ⟨_, hrun, C174_fixed hf Nat.zero_lt_one rfl rfl 1 hrun 0 (by norm_num)⟩

end PolyDiM
