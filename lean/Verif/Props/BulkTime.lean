import Verif.Model.BulkTime
import Verif.Spec.BulkTime
import Verif.Lemmas.ParabolicTime

/-!
# C171, C172: the time loop of the example with a bulk and a surface equation
-/

namespace PolyDiM

open Spec

/-- The matrix of the steps. -/
theorem eulerMatrix_row (dt : ℝ) (A M : List (Nat × Nat × ℝ)) (N : Nat) (x : Nat → ℝ) (i : Nat) :
    ∑ j ∈ Finset.range N, entry (eulerMatrix dt A M) i j * x j = dt * rowTimes A N x i + rowTimes M N x i := by
  unfold eulerMatrix rowTimes
  simp only [entry_append, entry_scale, add_mul, Finset.sum_add_distrib, Finset.mul_sum, mul_assoc]

theorem filter_ventry (l : List (Nat × ℝ)) (i : Nat) : ((l.filter fun t => t.1 = i).map Prod.snd).sum = ventry l i := by
  unfold ventry
  induction l with
  | nil => rfl
  | cons t l ih =>
    simp only [List.map_cons, List.sum_cons, List.filter_cons]
    by_cases h : t.1 = i <;> simp [h, ih]

theorem bulkResidual_eq (A : List (Nat × Nat × ℝ)) (rhs : List (Nat × ℝ)) (u : List ℝ) (i : Nat) :
    bulkResidual A rhs u i = rowTimes A u.length (fun j => u.getD j 0) i - ventry rhs i := by
  unfold bulkResidual rowTimes
  rw [← ventry_product, filter_ventry]
  congr 1
  unfold ventry addProduct
  induction A with
  | nil => rfl
  | cons t l ih =>
    simp only [List.map_cons, List.sum_cons, List.filter_cons]
    by_cases h : t.1 = i
    · simp only [h, decide_true, if_true, List.map_cons, List.sum_cons, ih]
    · simp only [h, decide_false, Bool.false_eq_true, if_false, ih, zero_add]

/-- The hypotheses on the calls of a run: the solver solves regular systems, the load is that of `F`, and the errors can be computed. -/
structure BulkCallsAre (f : BulkCalls ℝ) (N : Nat) (F : ℝ → List (Nat × ℝ)) (E : ℝ → List ℝ → FieldErrors ℝ × FieldErrors ℝ) : Prop where
  solve : SolvesSystems N f.solve
  load : ∀ t, f.assembleRhs t = .ok (F t)
  errors : ∀ t u, f.fieldErrors t u = .ok (E t u)
  sqrt : f.sqrt = Real.sqrt

/-- The matrix of the steps is regular. -/
def EulerRegular (A M : List (Nat × Nat × ℝ)) (N : Nat) (dt : ℝ) : Prop :=
  ∀ x : Nat → ℝ, (∀ i < N, dt * rowTimes A N x i + rowTimes M N x i = 0) → ∀ i < N, x i = 0

variable {f : BulkCalls ℝ} {N : Nat} {F : ℝ → List (Nat × ℝ)} {E : ℝ → List ℝ → FieldErrors ℝ × FieldErrors ℝ} {A M : List (Nat × Nat × ℝ)} {dt : ℝ}

/-- What the example reports for the whole run: the report of the last pass. -/
def finalReport (steps : List (BulkStep ℝ)) : Option (BulkReport ℝ) := steps.getLast?.map BulkStep.report

/-- The errors of both fields together, at the end of one pass. -/
noncomputable def totalErrors (E : FieldErrors ℝ × FieldErrors ℝ) : ℝ × ℝ :=
  (Real.sqrt (E.1.errorL2 ^ 2 + E.2.errorL2 ^ 2), Real.sqrt (E.1.errorH1 ^ 2 + E.2.errorH1 ^ 2))

/-- A report carries the errors of the fields `e`, the errors of both together, and, when these are not zero, the norms of both together. -/
def ReportsErrors (r : BulkReport ℝ) (e : FieldErrors ℝ × FieldErrors ℝ) : Prop :=
  r.bulk = e.1 ∧ r.surface = e.2 ∧ (r.errorL2, r.errorH1) = totalErrors e ∧
    (0 < (totalErrors e).1 → r.normL2 = Real.sqrt (e.1.normL2 ^ 2 + e.2.normL2 ^ 2)) ∧
    (0 < (totalErrors e).2 → r.normH1 = Real.sqrt (e.1.normH1 ^ 2 + e.2.normH1 ^ 2))

theorem bulkPost_errors (dofs : Nat) (dt : ℝ) (A : List (Nat × Nat × ℝ)) (rhs : List (Nat × ℝ)) (u : List ℝ) (e : FieldErrors ℝ × FieldErrors ℝ) :
    ReportsErrors (bulkPost Real.sqrt dofs dt A rhs u e) e := by
  suffices h :
    ((bulkPost Real.sqrt dofs dt A rhs u e).errorL2, (bulkPost Real.sqrt dofs dt A rhs u e).errorH1) = totalErrors e ∧
      (0 < (totalErrors e).1 → (bulkPost Real.sqrt dofs dt A rhs u e).normL2 = Real.sqrt (e.1.normL2 ^ 2 + e.2.normL2 ^ 2)) ∧
      (0 < (totalErrors e).2 → (bulkPost Real.sqrt dofs dt A rhs u e).normH1 = Real.sqrt (e.1.normH1 ^ 2 + e.2.normH1 ^ 2)) by
    exact ⟨rfl, rfl, h⟩
  have hb : ∀ a b : ℝ, bothFields Real.sqrt b a = Real.sqrt (a ^ 2 + b ^ 2) := fun a b => by unfold bothFields; congr 1; ring
  dsimp only [bulkPost, totalErrors]
  simp only [hb]
  refine ⟨?_, ?_, ?_⟩
  · refine Prod.ext ?_ ?_ <;> dsimp only
    all_goals
      split_ifs with h
      · rfl
      · exact le_antisymm (Real.sqrt_nonneg _) (not_lt.1 h)
  · intro h; rw [if_pos h]
  · intro h; rw [if_pos h]


theorem eulerStep_ok (hf : BulkCallsAre f N F E) (hreg : EulerRegular A M N dt) {old : List ℝ} (hold : old.length = N) (t : ℝ) :
    ∃ s, eulerStep f N dt (eulerMatrix dt A M) M old t = .ok s ∧ s.solution.length = N ∧ s.report.residual = 0 ∧
      ReportsErrors s.report (E t s.solution) ∧ s.report.step = dt ∧
      ∀ i < N, dt * rowTimes A N (fun j => s.solution.getD j 0) i + rowTimes M N (fun j => s.solution.getD j 0) i
        = dt * ventry (F t) i + rowTimes M N (fun j => old.getD j 0) i := by
  obtain ⟨h1, h2⟩ := hf.solve (eulerMatrix dt A M) (scaleVector dt (F t) ++ addProduct M old) fun x h => hreg x fun i hi => by
    rw [← eulerMatrix_row]; exact h i hi
  refine ⟨⟨f.solve (eulerMatrix dt A M) (scaleVector dt (F t) ++ addProduct M old), bulkPost f.sqrt N dt (eulerMatrix dt A M) (scaleVector dt (F t) ++ addProduct M old)
    (f.solve (eulerMatrix dt A M) (scaleVector dt (F t) ++ addProduct M old)) (E t (f.solve (eulerMatrix dt A M) (scaleVector dt (F t) ++ addProduct M old)))⟩,
    ?_, ?_, ?_, ?_, ?_, ?_⟩
  · unfold eulerStep
    rw [hf.load]
    simp only [except_ok_bind, hf.errors]
  · exact h1
  · dsimp only [bulkPost]
    rw [hf.sqrt]
    have : ∀ i ∈ List.range N, bulkResidual (eulerMatrix dt A M) (scaleVector dt (F t) ++ addProduct M old) (f.solve (eulerMatrix dt A M) (scaleVector dt (F t) ++ addProduct M old)) i
        * bulkResidual (eulerMatrix dt A M) (scaleVector dt (F t) ++ addProduct M old) (f.solve (eulerMatrix dt A M) (scaleVector dt (F t) ++ addProduct M old)) i = (0 : ℝ) := by
      intro i hi
      rw [bulkResidual_eq, h1]
      unfold rowTimes
      rw [h2 i (List.mem_range.1 hi), sub_self, mul_zero]
    rw [List.map_congr_left this]
    simp
  · dsimp only
    rw [hf.sqrt]
    exact bulkPost_errors _ _ _ _ _ _
  · rfl
  · intro i hi
    have := h2 i hi
    rw [eulerMatrix_row, ventry_append, ventry_scale, ventry_product, hold] at this
    exact this

theorem eulerLoop_ok (hf : BulkCallsAre f N F E) (hreg : EulerRegular A M N dt) (hdt : dt ≠ 0) (ts : List ℝ) : ∀ {old : List ℝ}, old.length = N →
    ∃ steps, eulerLoop f N dt (eulerMatrix dt A M) M old ts = .ok steps ∧ steps.length = ts.length ∧
      (∀ s ∈ steps, s.solution.length = N ∧ s.report.residual = 0 ∧ s.report.step = dt) ∧
      List.Forall₂ (fun t s => ReportsErrors s.report (E t s.solution)) ts steps ∧
      ∀ m < ts.length, ∀ i < N,
        rowTimes M N (fun j => ((((old :: steps.map BulkStep.solution).getD (m + 1) []).getD j 0) - (((old :: steps.map BulkStep.solution).getD m []).getD j 0)) / dt) i
          + rowTimes A N (fun j => ((old :: steps.map BulkStep.solution).getD (m + 1) []).getD j 0) i = ventry (F (ts.getD m 0)) i := by
  induction ts with
  | nil => intro old _; exact ⟨[], rfl, rfl, by simp, .nil, by simp⟩
  | cons t ts ih =>
    intro old hold
    obtain ⟨s, hs, hl, hres, hrep, hstep, hrow⟩ := eulerStep_ok (E := E) hf hreg hold t
    obtain ⟨steps, hsteps, hlen, hall, hreps, hrows⟩ := ih hl
    refine ⟨s :: steps, ?_, by simp [hlen], ?_, .cons hrep hreps, ?_⟩
    · unfold eulerLoop
      rw [hs]
      simp only [except_ok_bind, hsteps]
    · intro s' hs'
      rcases List.mem_cons.1 hs' with rfl | h
      · exact ⟨hl, hres, hstep⟩
      · exact hall s' h
    · intro m hm i hi
      cases m with
      | zero =>
        simp only [List.map_cons, List.getD_cons_succ, List.getD_cons_zero, zero_add]
        have h := hrow i hi
        have e : rowTimes M N (fun j => (s.solution.getD j 0 - old.getD j 0) / dt) i
            = (rowTimes M N (fun j => s.solution.getD j 0) i - rowTimes M N (fun j => old.getD j 0) i) / dt := by
          unfold rowTimes
          rw [← Finset.sum_sub_distrib, Finset.sum_div]
          exact Finset.sum_congr rfl fun j _ => by ring
        rw [e]
        field_simp
        linarith
      | succ m =>
        have := hrows m (by simpa using hm) i hi
        simpa only [List.map_cons, List.getD_cons_succ] using this

/-- **C171.** Implicit Euler: with a time domain that is not a point, the run ends, and the solutions of its passes, behind the initial one, satisfy
`M (u_{m+1} - u_m) / dt + A u_{m+1} = F(t_{m+1})`. The residual that is reported is zero. -/
theorem C171_euler (hf : BulkCallsAre f N F E) (hreg : EulerRegular A M N dt) (hdt : dt ≠ 0) {equispace : ℝ → List ℝ} {first last : ℝ} (htime : 1 / 10 ^ 12 ≤ last - first)
    {u : List ℝ} (hu : u.length = N) : ∃ steps, bulkRun f equispace N dt first last A M (.ok u) = .ok steps ∧ steps.length = (equispace dt).length - 1 ∧
      (∀ s ∈ steps, s.solution.length = N ∧ s.report.residual = 0 ∧ s.report.step = dt) ∧
      ImplicitEuler A M (fun t i => ventry (F t) i) N dt (fun m => first + (last - first) * (equispace dt).getD m 0) steps.length
        (fun m j => ((u :: steps.map BulkStep.solution).getD m []).getD j 0) := by
  obtain ⟨steps, h1, h2, h3, -, h4⟩ := eulerLoop_ok (E := E) hf hreg hdt ((createTimeSteps equispace dt first last).drop 1) hu
  have hn : steps.length = (equispace dt).length - 1 := by rw [h2]; simp [createTimeSteps]
  refine ⟨steps, ?_, hn, h3, ?_⟩
  · unfold bulkRun
    have hpos : (0 : ℝ) < 1 / 10 ^ 12 := by positivity
    rw [if_pos (by linarith : first - last < 0), if_neg (by linarith)]
    simp only [except_ok_bind]
    exact h1
  · intro m hm i hi
    have := h4 m (h2 ▸ hm) i hi
    rw [this]
    have hm' : m + 1 < (equispace dt).length := by omega
    congr 2
    dsimp only
    unfold createTimeSteps
    rw [List.getD_eq_getElem?_getD, List.getElem?_drop, List.getElem?_map, add_comm 1 m, List.getElem?_eq_getElem hm']
    simp only [List.getD_eq_getElem?_getD, List.getElem?_eq_getElem hm']
    simp [add_comm]

/-- **C171.** With a time domain that is a point, one system is solved: `A u = F(0)`, and the errors at the time zero are reported. -/
theorem C171_stationary (hf : BulkCallsAre f N F E) (hreg : ∀ x : Nat → ℝ, (∀ i < N, rowTimes A N x i = 0) → ∀ i < N, x i = 0) {equispace : ℝ → List ℝ} (time : ℝ)
    (initial : Except Fault (List ℝ)) : ∃ s, bulkRun f equispace N dt time time A M initial = .ok [s] ∧ s.solution.length = N ∧ s.report.residual = 0 ∧ s.report.step = 0 ∧
      ReportsErrors s.report (E 0 s.solution) ∧ ∀ i < N, rowTimes A N (fun j => s.solution.getD j 0) i = ventry (F 0) i := by
  obtain ⟨h1, h2⟩ := hf.solve A (F 0) hreg
  refine ⟨⟨f.solve A (F 0), bulkPost f.sqrt N 0 A (F 0) (f.solve A (F 0)) (E 0 (f.solve A (F 0)))⟩, ?_, h1, ?_, rfl, ?_, h2⟩
  · unfold bulkRun bulkStationary
    rw [sub_self, if_neg (lt_irrefl _), if_pos (by positivity), hf.load]
    simp only [except_ok_bind, hf.errors]
  · dsimp only [bulkPost]
    rw [hf.sqrt]
    have : ∀ i ∈ List.range N, bulkResidual A (F 0) (f.solve A (F 0)) i * bulkResidual A (F 0) (f.solve A (F 0)) i = (0 : ℝ) := by
      intro i hi
      rw [bulkResidual_eq, h1]
      unfold rowTimes
      rw [h2 i (List.mem_range.1 hi), sub_self, mul_zero]
    rw [List.map_congr_left this]
    simp
  · dsimp only
    rw [hf.sqrt]
    exact bulkPost_errors _ _ _ _ _ _

/-- **C171.** On the time domain of the parabolic test, with a step that divides it, the times are the multiples of the step. -/
theorem C171_times {n : Nat} (hn : 0 < n) (hf : BulkCallsAre f N F E) (hreg : EulerRegular A M N (1 / n)) {equispace : ℝ → List ℝ} (hgrid : equispace (1 / n) = unitGrid n)
    {u : List ℝ} (hu : u.length = N) : ∃ steps, bulkRun f equispace N (1 / n) 0 1 A M (.ok u) = .ok steps ∧ steps.length = n ∧
      ImplicitEuler A M (fun t i => ventry (F t) i) N (1 / n) (fun m => m * (1 / n : ℝ)) n
        (fun m j => ((u :: steps.map BulkStep.solution).getD m []).getD j 0) := by
  have hn' : (n : ℝ) ≠ 0 := by exact_mod_cast hn.ne'
  obtain ⟨steps, h1, h2, -, h4⟩ := C171_euler (E := E) hf hreg (one_div_ne_zero hn') (equispace := equispace) (first := 0) (last := 1) (by norm_num) hu
  rw [hgrid] at h2 h4
  have h2' : steps.length = n := by rw [h2]; simp [unitGrid]
  refine ⟨steps, h1, h2', ?_⟩
  intro m hm i hi
  have := h4 m (h2' ▸ hm) i hi
  rw [this]
  congr 2
  dsimp only
  unfold unitGrid
  rw [List.getD_eq_getElem?_getD, List.getElem?_map, List.getElem?_range (by omega)]
  simp [div_eq_mul_inv]

/-- **C171.** A weighted sum that the exchange does not change is kept up to the load. -/
theorem C171_conserved {F : ℝ → Nat → ℝ} {t : Nat → ℝ} {n : Nat} {u : Nat → Nat → ℝ} (h : ImplicitEuler A M F N dt t n u) (hdt : dt ≠ 0) (c : Nat → ℝ)
    (hc : ∀ j < N, ∑ i ∈ Finset.range N, c i * entry A i j = 0) {m : Nat} (hm : m < n) :
    ∑ i ∈ Finset.range N, c i * rowTimes M N (u (m + 1)) i
      = ∑ i ∈ Finset.range N, c i * rowTimes M N (u m) i + dt * ∑ i ∈ Finset.range N, c i * F (t (m + 1)) i := by
  have hA : ∑ i ∈ Finset.range N, c i * rowTimes A N (u (m + 1)) i = 0 := by
    unfold rowTimes
    simp only [Finset.mul_sum]
    rw [Finset.sum_comm]
    refine Finset.sum_eq_zero fun j hj => ?_
    have := hc j (Finset.mem_range.1 hj)
    simp only [← mul_assoc]
    rw [← Finset.sum_mul, this, zero_mul]
  have hM : ∀ i, rowTimes M N (fun j => (u (m + 1) j - u m j) / dt) i = (rowTimes M N (u (m + 1)) i - rowTimes M N (u m) i) / dt := by
    intro i
    unfold rowTimes
    rw [← Finset.sum_sub_distrib, Finset.sum_div]
    exact Finset.sum_congr rfl fun j _ => by ring
  have e : ∀ i ∈ Finset.range N, c i * rowTimes M N (u (m + 1)) i = c i * rowTimes M N (u m) i + dt * (c i * F (t (m + 1)) i) - dt * (c i * rowTimes A N (u (m + 1)) i) := by
    intro i hi
    have := h m hm i (Finset.mem_range.1 hi)
    rw [hM] at this
    rw [← this]
    field_simp
    ring
  rw [Finset.sum_congr rfl e, Finset.sum_sub_distrib, Finset.sum_add_distrib, ← Finset.mul_sum, ← Finset.mul_sum, hA]
  ring

/-- **C171.** Without a load, the energy does not grow, whatever the step is. -/
theorem C171_stable {F : ℝ → Nat → ℝ} {t : Nat → ℝ} {n : Nat} {u : Nat → Nat → ℝ} (h : ImplicitEuler A M F N dt t n u) (hdt : 0 < dt) (hF : ∀ s, ∀ i < N, F s i = 0)
    (hA : ∀ x, 0 ≤ tripletForm A N x x) (hM : ∀ x, 0 ≤ tripletForm M N x x) (hsymm : ∀ x y, tripletForm M N x y = tripletForm M N y x) {m : Nat} (hm : m < n) :
    tripletForm M N (u (m + 1)) (u (m + 1)) ≤ tripletForm M N (u m) (u m) := by
  have hsub : ∀ x y z, tripletForm M N x (fun j => y j - z j) = tripletForm M N x y - tripletForm M N x z := by
    intro x y z
    unfold tripletForm
    simp only [mul_sub, Finset.sum_sub_distrib]
  have key : tripletForm M N (u (m + 1)) (u (m + 1)) - tripletForm M N (u (m + 1)) (u m) = -dt * tripletForm A N (u (m + 1)) (u (m + 1)) := by
    rw [← hsub]
    unfold tripletForm
    rw [Finset.mul_sum]
    refine Finset.sum_congr rfl fun i hi => ?_
    have := h m hm i (Finset.mem_range.1 hi)
    rw [hF _ _ (Finset.mem_range.1 hi)] at this
    unfold rowTimes at this
    have e : ∑ j ∈ Finset.range N, entry M i j * ((u (m + 1) j - u m j) / dt) = (∑ j ∈ Finset.range N, entry M i j * (u (m + 1) j - u m j)) / dt := by
      rw [Finset.sum_div]
      exact Finset.sum_congr rfl fun j _ => by ring
    rw [e] at this
    have h2 : ∑ j ∈ Finset.range N, entry M i j * (u (m + 1) j - u m j) = -dt * ∑ j ∈ Finset.range N, entry A i j * u (m + 1) j := by
      field_simp at this
      linarith
    rw [h2]
    ring
  have hpos := hM (fun j => u (m + 1) j - u m j)
  rw [hsub, hsymm _ (u (m + 1)), hsymm _ (u m), hsub, hsub, hsymm (u m) (u (m + 1))] at hpos
  have := mul_nonneg hdt.le (hA (u (m + 1)))
  nlinarith

/-- What the property asks for: the error that is reported for the run is the largest one in time. -/
def ReportsLargest (steps : List (BulkStep ℝ)) : Prop :=
  ∀ r, finalReport steps = some r →
    IsLargest (steps.map fun s => (totalErrors (s.report.bulk, s.report.surface)).1) r.errorL2 ∧ IsLargest (steps.map fun s => (totalErrors (s.report.bulk, s.report.surface)).2) r.errorH1

theorem forall₂_last {α β : Type} {R : α → β → Prop} {l : List α} {m : List β} (h : List.Forall₂ R l m) (hl : l ≠ []) : ∃ a b, l.getLast? = some a ∧ m.getLast? = some b ∧ R a b := by
  induction h with
  | nil => exact absurd rfl hl
  | @cons a b l m hab hrest ih =>
    cases hrest with
    | nil => exact ⟨a, b, rfl, rfl, hab⟩
    | cons h1 h2 =>
      obtain ⟨x, y, hx, hy, hxy⟩ := ih (by simp)
      exact ⟨x, y, by rw [List.getLast?_cons_cons]; exact hx, by rw [List.getLast?_cons_cons]; exact hy, hxy⟩

/-- **C172, in part.** What holds: the report of the run carries the errors, of each field and of both together, at the last time. -/
theorem C172_errors_partial (hf : BulkCallsAre f N F E) (hreg : EulerRegular A M N dt) (hdt : dt ≠ 0) {equispace : ℝ → List ℝ} (hgrid : 2 ≤ (equispace dt).length) {first last : ℝ}
    (htime : 1 / 10 ^ 12 ≤ last - first) {u : List ℝ} (hu : u.length = N) : ∃ steps s r, bulkRun f equispace N dt first last A M (.ok u) = .ok steps ∧
      steps.getLast? = some s ∧ finalReport steps = some r ∧
      ReportsErrors r (E (first + (last - first) * (equispace dt).getLastD 0) s.solution) := by
  obtain ⟨steps, h1, h2, h3, h4, -⟩ := eulerLoop_ok (E := E) hf hreg hdt ((createTimeSteps equispace dt first last).drop 1) hu
  have hne : (createTimeSteps equispace dt first last).drop 1 ≠ [] := by
    intro h
    have := congrArg List.length h
    simp [createTimeSteps] at this
    omega
  obtain ⟨t, s, ht, hs, hr⟩ := forall₂_last h4 hne
  refine ⟨steps, s, s.report, ?_, hs, by unfold finalReport; rw [hs]; rfl, ?_⟩
  · unfold bulkRun
    have hpos : (0 : ℝ) < 1 / 10 ^ 12 := by positivity
    rw [if_pos (by linarith : first - last < 0), if_neg (by linarith)]
    simp only [except_ok_bind]
    exact h1
  · have : t = first + (last - first) * (equispace dt).getLastD 0 := by
      rw [List.getLast?_drop, if_neg (by simp [createTimeSteps]; omega)] at ht
      unfold createTimeSteps at ht
      rw [List.getLast?_map] at ht
      have hl : (equispace dt).getLast? = some ((equispace dt).getLastD 0) := by
        cases h : equispace dt with
        | nil => rw [h] at hgrid; simp at hgrid
        | cons a l => simp [List.getLast?_eq_some_getLast, List.getLastD_eq_getLast?]
      rw [hl] at ht
      simp only [Option.map_some, Option.some.injEq] at ht
      rw [← ht]; ring
    rw [← this]
    exact hr

/-- A solver for systems with one unknown. -/
noncomputable def scalarSolve (A : List (Nat × Nat × ℝ)) (b : List (Nat × ℝ)) : List ℝ := [ventry b 0 / entry A 0 0]

theorem scalarSolve_solves : SolvesSystems 1 scalarSolve := by
  intro A b h
  refine ⟨rfl, fun i hi => ?_⟩
  obtain rfl : i = 0 := by omega
  have : entry A 0 0 ≠ 0 := fun h0 => by
    have h1 := h (fun _ => (1 : ℝ)) (fun i hi => by
      obtain rfl : i = 0 := by omega
      simp [h0]) 0 (by norm_num)
    exact one_ne_zero h1
  simp [scalarSolve]
  field_simp

/-- One unknown without diffusion or load, compared with the function `1 + t (1 - t)`. -/
noncomputable def driftCalls : BulkCalls ℝ where
  solve := scalarSolve
  assembleRhs := fun _ => .ok []
  fieldErrors := fun t u => .ok (⟨|u.getD 0 0 - (1 + t * (1 - t))|, |u.getD 0 0|, |u.getD 0 0 - (1 + t * (1 - t))|, |u.getD 0 0|⟩, ⟨0, 0, 0, 0⟩)
  sqrt := Real.sqrt

/-- What a pass of that run leaves. -/
noncomputable def driftStep (t : ℝ) : BulkStep ℝ :=
  ⟨[1], bulkPost Real.sqrt 1 (1 / 2) (eulerMatrix (1 / 2) [] [(0, 0, 1)]) (scaleVector (1 / 2) [] ++ addProduct [(0, 0, 1)] [1]) [1]
    (⟨|1 - (1 + t * (1 - t))|, 1, |1 - (1 + t * (1 - t))|, 1⟩, ⟨0, 0, 0, 0⟩)⟩

theorem driftStep_ok (t : ℝ) : eulerStep driftCalls 1 (1 / 2) (eulerMatrix (1 / 2) [] [(0, 0, 1)]) [(0, 0, 1)] [1] t = .ok (driftStep t) := by
  have : scalarSolve (eulerMatrix (1 / 2) [] [(0, 0, 1)]) (scaleVector (1 / 2) [] ++ addProduct [(0, 0, 1)] [1]) = [1] := by
    simp [scalarSolve, eulerMatrix, scaleTriplets, scaleVector, addProduct, ventry, entry]
  unfold eulerStep driftCalls driftStep
  simp only [except_ok_bind, this]
  simp

theorem drift_run : bulkRun driftCalls (fun _ => unitGrid 2) 1 (1 / 2) 0 1 [] [(0, 0, 1)] (.ok [1]) = .ok [driftStep (1 / 2), driftStep 1] := by
  have hg : (createTimeSteps (fun _ => unitGrid 2) (1 / 2) 0 1).drop 1 = [1 / 2, (1 : ℝ)] := by
    simp [createTimeSteps, unitGrid, List.range_succ]
  unfold bulkRun
  rw [if_pos (by norm_num : (0 : ℝ) - 1 < 0), if_neg (by norm_num), hg]
  simp only [except_ok_bind, eulerLoop, driftStep_ok]
  rw [show (driftStep (1 / 2)).solution = [1] from rfl, driftStep_ok]
  rfl

/-- **C172.** What does not hold: the error reported for the run is not the largest one in time, and an error that is exactly zero comes with a norm that is zero, though the norm
of the solution is not. -/
theorem C172_not_largest : ∃ steps r, bulkRun driftCalls (fun _ => unitGrid 2) 1 (1 / 2) 0 1 [] [(0, 0, 1)] (.ok [1]) = .ok steps ∧ finalReport steps = some r ∧
    ¬ReportsLargest steps ∧ r.bulk.normL2 = 1 ∧ r.normL2 = 0 ∧ r.normH1 = 0 := by
  have h0 : (driftStep 1).report.errorL2 = 0 := by simp [driftStep, bulkPost, bothFields]
  refine ⟨_, (driftStep 1).report, drift_run, rfl, ?_, rfl, ?_, ?_⟩
  · intro h
    obtain ⟨⟨-, hmax⟩, -⟩ := h (driftStep 1).report rfl
    rw [h0] at hmax
    have := hmax _ (List.mem_map.2 ⟨driftStep (1 / 2), by simp, rfl⟩)
    have hpos : 0 < (totalErrors ((driftStep (1 / 2)).report.bulk, (driftStep (1 / 2)).report.surface)).1 := by
      unfold totalErrors driftStep bulkPost
      dsimp only
      refine Real.sqrt_pos.2 ?_
      norm_num
    linarith
  · simp [driftStep, bulkPost, bothFields]
  · simp [driftStep, bulkPost, bothFields]

/-- Two unknowns that exchange: one of the bulk and one of the surface. -/
def exchangePair : List (Nat × Nat × ℝ) := [(0, 0, 1), (0, 1, -1), (1, 0, -1), (1, 1, 1)]

/-- The unit matrix with two rows. -/
def unitPair : List (Nat × Nat × ℝ) := [(0, 0, 1), (1, 1, 1)]

theorem exchangePair_row (x : Nat → ℝ) : rowTimes exchangePair 2 x 0 = x 0 - x 1 ∧ rowTimes exchangePair 2 x 1 = x 1 - x 0 := by
  constructor <;> simp [rowTimes, exchangePair, entry, Finset.sum_range_succ] <;> ring

theorem unitPair_row (x : Nat → ℝ) : rowTimes unitPair 2 x 0 = x 0 ∧ rowTimes unitPair 2 x 1 = x 1 := by
  constructor <;> simp [rowTimes, unitPair, entry]

theorem pair_regular {dt : ℝ} (hdt : 0 < dt) : EulerRegular exchangePair unitPair 2 dt := by
  intro x h i hi
  have h0 := h 0 (by norm_num)
  have h1 := h 1 (by norm_num)
  rw [(exchangePair_row x).1, (unitPair_row x).1] at h0
  rw [(exchangePair_row x).2, (unitPair_row x).2] at h1
  have hs : x 1 = -x 0 := by linarith
  have : (1 + 2 * dt) * x 0 = 0 := by rw [hs] at h0; linarith
  have hx : x 0 = 0 := by
    rcases mul_eq_zero.1 this with h | h
    · linarith
    · exact h
  rcases (by omega : i = 0 ∨ i = 1) with rfl | rfl
  · exact hx
  · rw [hs, hx, neg_zero]

/-- The hypotheses of `C171_euler`, `C171_times`, `C171_conserved`, `C171_stable` and `C172_errors_partial` are met by two unknowns that exchange, from the values one and zero, with
four steps; the sum of the unknowns stays one, and the sum of the squares does not grow. -/
example : ∃ f : BulkCalls ℝ, ∃ steps, bulkRun f (fun _ => unitGrid 4) 2 (1 / (4 : ℕ)) 0 1 exchangePair unitPair (.ok [1, 0]) = .ok steps ∧ steps.length = 4 ∧
    (∃ s r, steps.getLast? = some s ∧ finalReport steps = some r ∧ r.errorL2 = |s.solution.getD 0 0|) ∧
    ∀ m < 4, ((([1, 0] :: steps.map BulkStep.solution).getD (m + 1) []).getD 0 0) + ((([1, 0] :: steps.map BulkStep.solution).getD (m + 1) []).getD 1 0)
        = ((([1, 0] :: steps.map BulkStep.solution).getD m []).getD 0 0) + ((([1, 0] :: steps.map BulkStep.solution).getD m []).getD 1 0) ∧
      ((([1, 0] :: steps.map BulkStep.solution).getD (m + 1) []).getD 0 0) ^ 2 + ((([1, 0] :: steps.map BulkStep.solution).getD (m + 1) []).getD 1 0) ^ 2
        ≤ ((([1, 0] :: steps.map BulkStep.solution).getD m []).getD 0 0) ^ 2 + ((([1, 0] :: steps.map BulkStep.solution).getD m []).getD 1 0) ^ 2 := by
  obtain ⟨solve, hsolve⟩ := exists_system_solver 2
  let E : ℝ → List ℝ → FieldErrors ℝ × FieldErrors ℝ := fun _ u => (⟨|u.getD 0 0|, 1, 0, 1⟩, ⟨0, 1, 0, 1⟩)
  have hf : BulkCallsAre ⟨solve, fun _ => .ok [], fun t u => .ok (E t u), Real.sqrt⟩ 2 (fun _ => []) E := ⟨hsolve, fun _ => rfl, fun _ _ => rfl, rfl⟩
  have hreg : EulerRegular exchangePair unitPair 2 (1 / (4 : ℕ)) := pair_regular (by norm_num)
  obtain ⟨steps, h1, h2, h3⟩ := C171_times (n := 4) (by norm_num) hf hreg (equispace := fun _ => unitGrid 4) rfl (u := [1, 0]) rfl
  obtain ⟨steps', s, r, h1', hs, hr, hrep⟩ := C172_errors_partial hf hreg (by norm_num) (equispace := fun _ => unitGrid 4) (by simp [unitGrid]) (first := 0) (last := 1) (by norm_num)
    (u := [1, 0]) rfl
  obtain rfl : steps = steps' := by rw [h1] at h1'; exact Except.ok.inj h1'
  have hform : ∀ x : Nat → ℝ, ∀ y : Nat → ℝ, tripletForm unitPair 2 x y = x 0 * y 0 + x 1 * y 1 := by
    intro x y
    simp [tripletForm, unitPair, entry, Finset.sum_range_succ]
  refine ⟨_, steps, h1, h2, ⟨s, r, hs, hr, ?_⟩, fun m hm => ⟨?_, ?_⟩⟩
  · have := congrArg Prod.fst hrep.2.2.1
    rw [show r.errorL2 = _ from this]
    simp [totalErrors, E, Real.sqrt_sq_eq_abs]
  · have := C171_conserved h3 (by norm_num) (fun _ => 1) (fun j hj => by
      rcases (by omega : j = 0 ∨ j = 1) with rfl | rfl <;> simp [exchangePair, entry, Finset.sum_range_succ]) hm
    simp only [Finset.sum_range_succ, Finset.sum_range_zero, zero_add, one_mul, (unitPair_row _).1, (unitPair_row _).2] at this
    rw [this]
    simp [ventry]
  · have := C171_stable h3 (by norm_num) (fun _ _ _ => rfl) (fun x => by
      have : tripletForm exchangePair 2 x x = (x 0 - x 1) ^ 2 := by
        simp [tripletForm, exchangePair, entry, Finset.sum_range_succ]; ring
      rw [this]; positivity) (fun x => by rw [hform]; nlinarith [sq_nonneg (x 0), sq_nonneg (x 1)]) (fun x y => by rw [hform, hform]; ring) hm
    rw [hform, hform] at this
    simpa only [← pow_two] using this

/-- The hypotheses of `C171_stationary` are met by one equation `2 u = 6`, whose solution is three. -/
example : ∃ s, bulkRun ⟨scalarSolve, fun _ => .ok [(0, 6)], fun _ _ => .ok (⟨1, 1, 1, 1⟩, ⟨0, 0, 0, 0⟩), Real.sqrt⟩ (fun _ => []) 1 (1 / 2) 0 0 [(0, 0, 2)] [] (.ok [0]) = .ok [s] ∧
    s.solution.getD 0 0 = 3 := by
  obtain ⟨s, h1, -, -, -, -, h⟩ := C171_stationary (f := ⟨scalarSolve, fun _ => .ok [(0, 6)], fun _ _ => .ok (⟨1, 1, 1, 1⟩, ⟨0, 0, 0, 0⟩), Real.sqrt⟩) (N := 1) (F := fun _ => [(0, 6)])
    (E := fun _ _ => (⟨1, 1, 1, 1⟩, ⟨0, 0, 0, 0⟩)) (A := [(0, 0, 2)]) (M := []) (dt := 1 / 2) (equispace := fun _ => []) ⟨scalarSolve_solves, fun _ => rfl, fun _ _ => rfl, rfl⟩
    (fun x h i hi => by
      have := h 0 (by norm_num)
      obtain rfl : i = 0 := by omega
      simpa [rowTimes, entry] using this) 0 (.ok [0])
  have := h 0 (by norm_num)
  simp only [rowTimes, entry, ventry, Finset.sum_range_one, List.map_cons, List.map_nil, List.sum_cons, List.sum_nil, and_self, if_true, add_zero] at this
  exact ⟨s, h1, by linarith⟩

end PolyDiM
