import Verif.Lemmas.LineErrors
import Verif.Props.RT2D
import Verif.Props.Fem1D

/-!
# Properties of the elliptic example on meshes of segments

C142: the element matrix and vector are the forms of the equation on the segment.
C143: piecewise polynomial solutions solve the assembled system (patch test).
C144: the assembled system has exactly one solution; for a piecewise polynomial solution the reported errors are zero.
C145: the reported L2 and H1 errors; the third component of the derivative is missing.
-/

namespace PolyDiM

open Spec Polynomial

/-- **C142.** The element matrix and vector of a segment are the quadrature of the diffusion and reaction terms and of the source, for polynomials of the space. -/
theorem C142_forms {k : Nat} (hk : 1 ≤ k) {type : Fem1Type} {lobatto : List ℝ} (hn : GoodNodes k type lobatto) {d : Fem1Data ℝ} (hd : fem1Create k type lobatto = .ok d)
    {mesh : LineMesh ℝ} {g : LineGeometry ℝ} (hm : IsLineMesh mesh g) {c : Nat} (hc : c < mesh.num1D) {rule : Rule ℝ ℝ} (hrule : rule.weights.length = rule.points.length)
    (test : LineTest ℝ) :
    ∃ s A b, lineSpace d rule g c = .ok s ∧ lineLocal s test = .ok (A, b) ∧ A.rows = k + 1 ∧ A.cols = k + 1 ∧ b.rows = k + 1 ∧
      ∀ p r : ℝ[X], p.natDegree ≤ k → r.natDegree ≤ k →
        ∑ i ∈ Finset.range (k + 1), r.eval (d.positions.getD i 0) * ∑ j ∈ Finset.range (k + 1), A.ent i j * p.eval (d.positions.getD j 0)
          = quadSum rule.points rule.weights (fun t => g.length c * (test.diffusion (linePoint mesh c t) *
              (((Polynomial.derivative r).eval t / g.length c) * ((Polynomial.derivative p).eval t / g.length c)) + test.reaction (linePoint mesh c t) * (r.eval t * p.eval t))) ∧
        ∑ i ∈ Finset.range (k + 1), r.eval (d.positions.getD i 0) * b.ent i 0
          = quadSum rule.points rule.weights (fun t => g.length c * (test.source (linePoint mesh c t) * r.eval t)) := by
  obtain ⟨mid, R⟩ := lineRef_of hk hn hd
  obtain ⟨s, A, b, hs, hl, hA1, hA2, hb, -, hAf, hbf⟩ := R.local_form hk hrule g c test
  refine ⟨s, A, b, hs, hl, hA1, hA2, hb, fun p r hp hr => ?_⟩
  have ep := R.reproduce hp (x := fun j => p.eval (d.positions.getD j 0)) fun i _ => rfl
  have er := R.reproduce hr (x := fun j => r.eval (d.positions.getD j 0)) fun i _ => rfl
  have hpos := abs_of_pos (hm.pos c hc)
  constructor
  · rw [hAf (fun j => r.eval (d.positions.getD j 0)) fun j => p.eval (d.positions.getD j 0), ep, er]
    simp only [mul_assoc]
    refine sum_quadSum rule.points rule.weights hrule _ _ fun i t hi => ?_
    rw [List.getD_eq_getElem?_getD, hi, Option.getD_some, segF_point hm hc, hpos]
  · rw [hbf (fun j => r.eval (d.positions.getD j 0)), er]
    simp only [mul_assoc]
    refine sum_quadSum rule.points rule.weights hrule _ _ fun i t hi => ?_
    rw [List.getD_eq_getElem?_getD, hi, Option.getD_some, segF_point hm hc, hpos]

/-- **C142.** With a rule exact for degree `2 k` and coefficients that are constant on the segment the matrix is exact. -/
theorem C142_exact {k : Nat} (hk : 1 ≤ k) {type : Fem1Type} {lobatto : List ℝ} (hn : GoodNodes k type lobatto) {d : Fem1Data ℝ} (hd : fem1Create k type lobatto = .ok d)
    {mesh : LineMesh ℝ} {g : LineGeometry ℝ} (hm : IsLineMesh mesh g) {c : Nat} (hc : c < mesh.num1D) {rule : Rule ℝ ℝ} (hG : IsGauss k rule)
    (test : LineTest ℝ) {κ σ : ℝ} (hκ : ∀ t, 0 < t → t < 1 → test.diffusion (linePoint mesh c t) = κ) (hσ : ∀ t, 0 < t → t < 1 → test.reaction (linePoint mesh c t) = σ) :
    ∃ s A b, lineSpace d rule g c = .ok s ∧ lineLocal s test = .ok (A, b) ∧
      ∀ p r : ℝ[X], p.natDegree ≤ k → r.natDegree ≤ k →
        ∑ i ∈ Finset.range (k + 1), r.eval (d.positions.getD i 0) * ∑ j ∈ Finset.range (k + 1), A.ent i j * p.eval (d.positions.getD j 0)
          = ∫ t in (0 : ℝ)..1, (κ / g.length c * ((Polynomial.derivative r).eval t * (Polynomial.derivative p).eval t) + σ * g.length c * (r.eval t * p.eval t)) := by
  obtain ⟨s, A, b, hs, hl, -, -, -, hf⟩ := C142_forms hk hn hd hm hc hG.size test
  refine ⟨s, A, b, hs, hl, fun p r hp hr => ?_⟩
  rw [(hf p r hp hr).1]
  have hdeg : (C (κ / g.length c) * (Polynomial.derivative r * Polynomial.derivative p) + C (σ * g.length c) * (r * p)).natDegree ≤ 2 * k := by
    refine natDegree_add_le_of_degree_le ((natDegree_C_mul_le _ _).trans (natDegree_mul_le.trans ?_)) ((natDegree_C_mul_le _ _).trans (natDegree_mul_le.trans ?_))
    · have := natDegree_derivative_le r
      have := natDegree_derivative_le p
      omega
    · omega
  have hE := hG.exact _ hdeg
  simp only [eval_add, eval_mul, eval_C] at hE
  rw [← hE]
  refine quadSum_congr _ _ fun t ht => ?_
  obtain ⟨t0, t1⟩ := hG.inside t ht
  rw [hκ t t0 t1, hσ t t0 t1]
  have := (hm.pos c hc).ne'
  field_simp

/-- **C143.** Patch test: a solution that is a polynomial of degree at most `k` on every segment solves the assembled system, and the values at the vertices of strong type
are its values. -/
theorem C143_patch {k : Nat} {type : Fem1Type} {lobatto : List ℝ} {d : Fem1Data ℝ} {mesh : LineMesh ℝ} {g : LineGeometry ℝ} {boundary : Nat → Option BInfo} {info : MeshInfo}
    {data : DOFsData} {rule : Rule ℝ ℝ} (hP : IsLineProblem k type lobatto d mesh g boundary info data rule) {test : LineTest ℝ} {u : (Nat → ℝ) → ℝ} {P : Nat → ℝ[X]} {κ σ : Nat → ℝ}
    (hS : IsLineSolution k mesh info g.length test u P κ σ) :
    ∃ Pb, assembleLine info data d rule g mesh test = .ok Pb ∧ ∃ free, IsLineDofs mesh d.positions data u free Pb.dirichlet ∧
      ∀ i, ∑ j ∈ Finset.range data.counters.dofs, entry Pb.globalMatrix i j * free.getD j 0 = ventry Pb.rightHandSide i := by
  obtain ⟨mid, R⟩ := lineRef_of hP.order hP.nodes hP.element
  have H : DofHandler (lineNum k) 1 mesh.topo info data := dofHandler_of (E := 1) (by rw [← R.info_eq]; exact hP.created) hP.dofs hP.total
  exact line_patch hP.order hP.small R hP.geometry H hP.segments hP.gauss hS

theorem powerLoop_eq {K : Type} [Field K] (a x : K) (n : Nat) : powerLoop a x n = a * x ^ n := by
  unfold powerLoop
  induction n with
  | zero => simp
  | succ n ih => rw [List.range_succ, List.foldl_append, ih]; simp [pow_succ, mul_assoc]

/-- The polynomial of a power of an affine function on a segment. -/
noncomputable def axisPoly (k : Nat) (x l : ℝ) : ℝ[X] := (C x + C l * X) ^ k

theorem axisPoly_eval (k : Nat) (x l t : ℝ) : (axisPoly k x l).eval t = (x + l * t) ^ k := by simp [axisPoly]

theorem axisPoly_der (k : Nat) (x l : ℝ) : Polynomial.derivative (axisPoly k x l) = C (k * l) * axisPoly (k - 1) x l := by
  rw [axisPoly, axisPoly, derivative_pow]
  simp
  ring

theorem axisPoly_degree (k : Nat) (x l : ℝ) : (axisPoly k x l).natDegree ≤ k := by
  refine natDegree_pow_le.trans ?_
  have : (C x + C l * X : ℝ[X]).natDegree ≤ 1 := natDegree_add_le_of_degree_le (by simp) (natDegree_C_mul_le _ _ |>.trans (by simp))
  nlinarith

/-- A power of `x + s(y) + 1/2` as a solution on a mesh parallel to the first axis. -/
theorem axis_solution {k : Nat} {mesh : LineMesh ℝ} {g : LineGeometry ℝ} {info : MeshInfo} (hm : IsLineMesh mesh g) (ha : IsAxisMesh mesh info)
    (s : (Nat → ℝ) → ℝ) (hs : ∀ p q : Nat → ℝ, p 1 = q 1 → s p = s q) (σ : ℝ) {test : LineTest ℝ} (h1 : ∀ p, test.diffusion p = 1) (h2 : ∀ p, test.reaction p = σ)
    (h3 : ∀ p, test.source p = -(k * (k - 1 : Nat) * (p 0 + s p) ^ (k - 2)) + σ * (p 0 + s p) ^ k) (h4 : ∀ m p, test.strong m p = (p 0 + s p) ^ k)
    (h5 : ∀ m p, test.weak m p = k * (p 0 + s p) ^ (k - 1)) :
    IsLineSolution k mesh info g.length test (fun p => (p 0 + s p) ^ k)
      (fun c => axisPoly k (mesh.coords (mesh.topo.cell1DVertices c).1 0 + s (mesh.coords (mesh.topo.cell1DVertices c).1)) (g.length c)) (fun _ => 1) (fun _ => σ) := by
  have hlen : ∀ c < mesh.num1D, g.length c = mesh.coords (mesh.topo.cell1DVertices c).2 0 - mesh.coords (mesh.topo.cell1DVertices c).1 0 := by
    intro c hc
    have := hm.len c hc
    rw [hm.tangent c hc, hm.tangent c hc, hm.tangent c hc, ha.parallel c hc 1 (by simp), ha.parallel c hc 2 (by simp)] at this
    have h0 := hm.pos c hc
    have h1 := ha.forward c hc
    nlinarith
  have hpt : ∀ c < mesh.num1D, ∀ t, linePoint mesh c t 0 + s (linePoint mesh c t)
      = mesh.coords (mesh.topo.cell1DVertices c).1 0 + s (mesh.coords (mesh.topo.cell1DVertices c).1) + g.length c * t := by
    intro c hc t
    rw [hs (linePoint mesh c t) (mesh.coords (mesh.topo.cell1DVertices c).1) (by rw [linePoint, ha.parallel c hc 1 (by simp)]; ring), hlen c hc, linePoint]
    ring
  have hend : ∀ c < mesh.num1D, mesh.coords (mesh.topo.cell1DVertices c).2 0 + s (mesh.coords (mesh.topo.cell1DVertices c).2)
      = mesh.coords (mesh.topo.cell1DVertices c).1 0 + s (mesh.coords (mesh.topo.cell1DVertices c).1) + g.length c * 1 := by
    intro c hc
    rw [← hpt c hc 1, linePoint_one]
  have hfl0 : ∀ c < mesh.num1D, (1 : ℝ) / g.length c * (Polynomial.derivative (axisPoly k (mesh.coords (mesh.topo.cell1DVertices c).1 0
        + s (mesh.coords (mesh.topo.cell1DVertices c).1)) (g.length c))).eval 0
      = k * (mesh.coords (mesh.topo.cell1DVertices c).1 0 + s (mesh.coords (mesh.topo.cell1DVertices c).1)) ^ (k - 1) := by
    intro c hc
    have := (hm.pos c hc).ne'
    rw [axisPoly_der, eval_mul, eval_C, axisPoly_eval, mul_zero, add_zero]
    field_simp
  have hfl1 : ∀ c < mesh.num1D, (1 : ℝ) / g.length c * (Polynomial.derivative (axisPoly k (mesh.coords (mesh.topo.cell1DVertices c).1 0
        + s (mesh.coords (mesh.topo.cell1DVertices c).1)) (g.length c))).eval 1
      = k * (mesh.coords (mesh.topo.cell1DVertices c).2 0 + s (mesh.coords (mesh.topo.cell1DVertices c).2)) ^ (k - 1) := by
    intro c hc
    have := (hm.pos c hc).ne'
    rw [axisPoly_der, eval_mul, eval_C, axisPoly_eval, hend c hc]
    field_simp
  refine ⟨fun c _ => axisPoly_degree _ _ _, fun c hc t _ _ => ?_, fun c _ t _ _ => h1 _, fun c _ t _ _ => h2 _, fun c hc t _ _ => ?_, fun v hv n1 n2 => ?_,
    fun c hc m _ => ?_, fun c hc m _ => ?_, fun v _ m _ => h4 _ _⟩
  · rw [axisPoly_eval, hpt c hc]
  · have := (hm.pos c hc).ne'
    rw [h3, hpt c hc, axisPoly_der, derivative_C_mul, axisPoly_der, axisPoly_eval, eval_mul, eval_C, eval_mul, eval_C, axisPoly_eval, Nat.sub_sub]
    field_simp
  · have hterm : ∀ c ∈ Finset.range mesh.num1D, (1 : ℝ) / g.length c * ((if (mesh.topo.cell1DVertices c).2 = v then (Polynomial.derivative (axisPoly k
          (mesh.coords (mesh.topo.cell1DVertices c).1 0 + s (mesh.coords (mesh.topo.cell1DVertices c).1)) (g.length c))).eval 1 else 0)
        - (if (mesh.topo.cell1DVertices c).1 = v then (Polynomial.derivative (axisPoly k
          (mesh.coords (mesh.topo.cell1DVertices c).1 0 + s (mesh.coords (mesh.topo.cell1DVertices c).1)) (g.length c))).eval 0 else 0))
        = (if (mesh.topo.cell1DVertices c).2 = v then k * (mesh.coords v 0 + s (mesh.coords v)) ^ (k - 1) else 0)
          - (if (mesh.topo.cell1DVertices c).1 = v then k * (mesh.coords v 0 + s (mesh.coords v)) ^ (k - 1) else 0) := by
      intro c hc
      have hc' := Finset.mem_range.1 hc
      rw [mul_sub, mul_ite, mul_ite, mul_zero, hfl0 c hc', hfl1 c hc']
      congr 1
      · split_ifs with h
        · rw [h]
        · rfl
      · split_ifs with h
        · rw [h]
        · rfl
    rw [Finset.sum_congr rfl hterm, Finset.sum_sub_distrib, ← Finset.sum_filter, ← Finset.sum_filter, Finset.sum_const, Finset.sum_const, ha.joined v hv n1 n2, sub_self]
  · rw [h5, hfl0 c hc]
  · rw [h5, hfl1 c hc]

/-- **C143.** The test `Patch_Test` of the example is a patch test in the sense of `C143_patch`: on every mesh of segments along the first axis, for every order. -/
theorem C143_patch_test {k : Nat} {mesh : LineMesh ℝ} {g : LineGeometry ℝ} {info : MeshInfo} (hm : IsLineMesh mesh g) (ha : IsAxisMesh mesh info) :
    ∃ P, IsLineSolution k mesh info g.length (patchTest1D k) (patchExact1D k).value P (fun _ => 1) (fun _ => 0) := by
  have e : (patchExact1D k).value = fun p : Nat → ℝ => (p 0 + 1 / 2) ^ k := by
    funext p
    show powerLoop 1 (p 0 + 1 / 2) k = _
    rw [powerLoop_eq, one_mul]
  rw [e]
  refine ⟨_, axis_solution hm ha (fun _ => 1 / 2) (fun _ _ _ => rfl) 0 (fun _ => rfl) (fun _ => rfl) (fun p => ?_) (fun m p => ?_) fun m p => ?_⟩
  · show -powerLoop _ _ _ = _
    rw [powerLoop_eq]
    push_cast
    ring
  · show powerLoop _ _ _ = _
    rw [powerLoop_eq, one_mul]
  · show powerLoop _ _ _ = _
    rw [powerLoop_eq]

/-- **C143.** The same for `Rotated_Patch_Test`. -/
theorem C143_rotated_test {k : Nat} {mesh : LineMesh ℝ} {g : LineGeometry ℝ} {info : MeshInfo} (hm : IsLineMesh mesh g) (ha : IsAxisMesh mesh info) :
    ∃ P, IsLineSolution k mesh info g.length (rotatedTest1D k) (rotatedExact1D k).value P (fun _ => 1) (fun _ => 1) := by
  have e : (rotatedExact1D k).value = fun p : Nat → ℝ => (p 0 + (p 1 + 1 / 2)) ^ k := by
    funext p
    show powerLoop 1 (p 0 + p 1 + 1 / 2) k = _
    rw [powerLoop_eq, one_mul, add_assoc]
  have e' : ∀ (m : Nat) (p : Nat → ℝ), (rotatedTest1D k).strong m p = (p 0 + (p 1 + 1 / 2)) ^ k := fun m p => congrFun e p
  rw [e]
  refine ⟨_, axis_solution hm ha (fun p => p 1 + 1 / 2) (fun p q h => by simp [h]) 1 (fun _ => rfl) (fun _ => rfl) (fun p => ?_) e' fun m p => ?_⟩
  · show -powerLoop _ _ _ + (rotatedExact1D k).value p = _
    rw [powerLoop_eq, e]
    push_cast
    ring
  · show powerLoop _ _ _ = _
    rw [powerLoop_eq, add_assoc]

/-- **C144.** With positive diffusion, nonnegative reaction and nonnegative weights the assembled system has exactly one solution if every connected piece has a vertex of
strong type or a segment with positive reaction. -/
theorem C144_unique {k : Nat} {type : Fem1Type} {lobatto : List ℝ} {d : Fem1Data ℝ} {mesh : LineMesh ℝ} {g : LineGeometry ℝ} {boundary : Nat → Option BInfo} {info : MeshInfo}
    {data : DOFsData} {rule : Rule ℝ ℝ} (hP : IsLineProblem k type lobatto d mesh g boundary info data rule) {test : LineTest ℝ} (hw : ∀ w ∈ rule.weights, 0 ≤ w)
    (hκ : ∀ c < mesh.num1D, ∀ t, 0 < t → t < 1 → 0 < test.diffusion (linePoint mesh c t)) (hσ : ∀ c < mesh.num1D, ∀ t, 0 < t → t < 1 → 0 ≤ test.reaction (linePoint mesh c t))
    (hfix : LineFixed mesh info test) :
    ∃ Pb, assembleLine info data d rule g mesh test = .ok Pb ∧ ∃! x : List ℝ, x.length = data.counters.dofs ∧
      ∀ i < data.counters.dofs, ∑ j ∈ Finset.range data.counters.dofs, entry Pb.globalMatrix i j * x.getD j 0 = ventry Pb.rightHandSide i := by
  obtain ⟨mid, R⟩ := lineRef_of hP.order hP.nodes hP.element
  have H : DofHandler (lineNum k) 1 mesh.topo info data := dofHandler_of (E := 1) (by rw [← R.info_eq]; exact hP.created) hP.dofs hP.total
  obtain ⟨Pb, h1, h2⟩ := line_unique hP.order hP.small R hP.geometry H hP.segments hP.gauss hw hκ hσ hfix
  exact ⟨Pb, h1, h2 _⟩

/-- **C145 (partial).** What `PostProcessSolution` reports on one segment for any vectors of the right size: with `U` the function of the DOFs, the quadrature of the squared
differences of the values, and the exact squared norms. The H1 error is that of the tangential derivative when the third component of the exact derivative or of the tangent
vanishes. What is missing: segments with a third component (`C145_vertical`). -/
theorem C145_errors_partial {k : Nat} {type : Fem1Type} {lobatto : List ℝ} {d : Fem1Data ℝ} {mesh : LineMesh ℝ} {g : LineGeometry ℝ} {boundary : Nat → Option BInfo} {info : MeshInfo}
    {data : DOFsData} {rule : Rule ℝ ℝ} (hP : IsLineProblem k type lobatto d mesh g boundary info data rule) (exact : LineExact ℝ)
    {free strong : List ℝ} (hf : free.length = data.counters.dofs) (hs : strong.length = data.counters.strongs) {c : Nat} (hc : c < mesh.num1D) :
    ∃ (E : LineCellErrors ℝ) (U : ℝ[X]), lineErrors data d rule g exact free strong c = .ok E ∧
      U.natDegree ≤ k ∧ U.eval 0 = valueOf data free strong ⟨0, (mesh.topo.cell1DVertices c).1, 0⟩ ∧ U.eval 1 = valueOf data free strong ⟨0, (mesh.topo.cell1DVertices c).2, 0⟩ ∧
      (∀ j < k - 1, U.eval (d.positions.getD (2 + j) 0) = valueOf data free strong ⟨1, c, j⟩) ∧
      E.errorL2 = quadSum rule.points rule.weights (fun t => g.length c * (U.eval t - exact.value (linePoint mesh c t)) ^ 2) ∧
      E.normL2 = ∫ t in (0 : ℝ)..1, g.length c * U.eval t ^ 2 ∧
      E.normH1 = ∫ t in (0 : ℝ)..1, g.length c * ((Polynomial.derivative U).eval t / g.length c) ^ 2 ∧
      ((∀ t, 0 < t → t < 1 → exact.derivative (linePoint mesh c t) 2 * g.tangent c 2 = 0) →
        E.errorH1 = quadSum rule.points rule.weights (fun t => g.length c * ((Polynomial.derivative U).eval t / g.length c
          - (∑ i ∈ Finset.range 3, exact.derivative (linePoint mesh c t) i * g.tangent c i) / g.length c) ^ 2)) := by
  obtain ⟨mid, R⟩ := lineRef_of hP.order hP.nodes hP.element
  have H : DofHandler (lineNum k) 1 mesh.topo info data := dofHandler_of (E := 1) (by rw [← R.info_eq]; exact hP.created) hP.dofs hP.total
  obtain ⟨E, hE, e1, e2, e3, e4⟩ := line_errors (g := g) hP.order R hP.gauss.size H exact hf hs hc
  obtain ⟨n1, n2, n3, n4⟩ := lineFunction_nodes hP.order R mesh.topo data free strong c
  have hpos := hP.geometry.pos c hc
  have hq : ∀ (F : Nat → ℝ) (f : ℝ → ℝ), (∀ i t, rule.points[i]? = some t → F i = f t) →
      ∑ q ∈ Finset.range rule.points.length, rule.weights.getD q 0 * |g.length c| * F q = quadSum rule.points rule.weights fun t => g.length c * f t := by
    intro F f h
    simp only [mul_assoc]
    refine sum_quadSum rule.points rule.weights hP.gauss.size _ _ fun i t hi => ?_
    rw [h i t hi, abs_of_pos hpos]
  have hint : ∀ p : ℝ[X], p.natDegree ≤ k → quadSum rule.points rule.weights (fun t => g.length c * p.eval t ^ 2) = ∫ t in (0 : ℝ)..1, g.length c * p.eval t ^ 2 := by
    intro p hp
    have hdeg : (C (g.length c) * p ^ 2).natDegree ≤ 2 * k := by
      refine (natDegree_C_mul_le _ _).trans (natDegree_pow_le.trans ?_)
      omega
    have := hP.gauss.exact _ hdeg
    simpa only [eval_mul, eval_C, eval_pow] using this
  refine ⟨E, _, hE, n1, n2, n3, n4, ?_, ?_, ?_, fun hz => ?_⟩
  · rw [e1]
    refine hq _ _ fun i t hi => ?_
    rw [List.getD_eq_getElem?_getD, hi, Option.getD_some, segF_point hP.geometry hc, sq]
  · rw [e2, ← hint _ n1]
    refine hq _ _ fun i t hi => ?_
    rw [List.getD_eq_getElem?_getD, hi, Option.getD_some, sq]
  · rw [e4]
    have hd : (C (1 / g.length c) * Polynomial.derivative (lineFunction k d mesh.topo data free strong c)).natDegree ≤ k :=
      (natDegree_C_mul_le _ _).trans ((natDegree_derivative_le _).trans (by omega))
    have := hint _ hd
    simp only [eval_mul, eval_C, one_div_mul_eq_div] at this
    rw [← this]
    refine hq _ _ fun i t hi => ?_
    rw [List.getD_eq_getElem?_getD, hi, Option.getD_some, sq]
  · rw [e3]
    refine hq _ _ fun i t hi => ?_
    obtain ⟨t0, t1⟩ := hP.gauss.inside t (List.mem_of_getElem? hi)
    rw [List.getD_eq_getElem?_getD, hi, Option.getD_some, segF_point hP.geometry hc, tangentDerivative, Finset.sum_range_succ, Finset.sum_range_succ, Finset.sum_range_one, hz t t0 t1,
      ← sq]
    ring

theorem row_entries (l : List (Nat × Nat × ℝ)) (x : List ℝ) (i : Nat) :
    ((l.filter fun t => t.1 = i).map fun t => t.2.2 * x.getD t.2.1 0).sum = ∑ j ∈ Finset.range x.length, entry l i j * x.getD j 0 := by
  induction l with
  | nil => simp [entry]
  | cons t l ih =>
    have h : ∀ j, entry (t :: l) i j = (if t.1 = i ∧ t.2.1 = j then t.2.2 else 0) + entry l i j := fun j => by simp [entry]
    simp only [h, add_mul, Finset.sum_add_distrib, ← ih]
    by_cases ht : t.1 = i
    · rw [List.filter_cons_of_pos (by simpa using ht), List.map_cons, List.sum_cons]
      congr 1
      simp only [ht, true_and, ite_mul, zero_mul, Finset.sum_ite_eq, Finset.mem_range]
      split_ifs with h'
      · rfl
      · simp [List.getD_eq_getElem?_getD, List.getElem?_eq_none (not_lt.1 h')]
    · rw [List.filter_cons_of_neg (by simpa using ht)]
      simp [ht]

theorem row_ventry (l : List (Nat × ℝ)) (i : Nat) : ((l.filter fun t => t.1 = i).map Prod.snd).sum = ventry l i := by
  induction l with
  | nil => simp [ventry]
  | cons t l ih =>
    have h : ventry (t :: l) i = (if t.1 = i then t.2 else 0) + ventry l i := by simp [ventry]
    rw [h, ← ih]
    by_cases ht : t.1 = i
    · rw [List.filter_cons_of_pos (by simpa using ht), List.map_cons, List.sum_cons, if_pos ht]
    · rw [List.filter_cons_of_neg (by simpa using ht), if_neg ht, zero_add]

/-- **C144.** For a solution that is a polynomial of degree at most `k` on every segment, with the conditions of `C144_unique`: the solution of the system is the vector of its
DOFs and `PostProcessSolution` reports a zero residual, the exact values at the vertices and a zero L2 error; the H1 error is zero when the third component of the derivative or
of the tangent vanishes. -/
theorem C144_exact {k : Nat} {type : Fem1Type} {lobatto : List ℝ} {d : Fem1Data ℝ} {mesh : LineMesh ℝ} {g : LineGeometry ℝ} {boundary : Nat → Option BInfo} {info : MeshInfo}
    {data : DOFsData} {rule : Rule ℝ ℝ} (hP : IsLineProblem k type lobatto d mesh g boundary info data rule) {test : LineTest ℝ} (hw : ∀ w ∈ rule.weights, 0 ≤ w)
    {u : (Nat → ℝ) → ℝ} {P : Nat → ℝ[X]} {κ σ : Nat → ℝ} (hS : IsLineSolution k mesh info g.length test u P κ σ)
    (hκ : ∀ c < mesh.num1D, 0 < κ c) (hσ : ∀ c < mesh.num1D, 0 ≤ σ c) (hfix : LineFixed mesh info test) {exact : LineExact ℝ}
    (hv : ∀ p, exact.value p = u p)
    (hd : ∀ c < mesh.num1D, ∀ t, 0 < t → t < 1 → ∑ i ∈ Finset.range 3, exact.derivative (linePoint mesh c t) i * g.tangent c i = (Polynomial.derivative (P c)).eval t) :
    ∃ Pb, assembleLine info data d rule g mesh test = .ok Pb ∧ ∀ x : List ℝ, x.length = data.counters.dofs →
      (∀ i < data.counters.dofs, ∑ j ∈ Finset.range data.counters.dofs, entry Pb.globalMatrix i j * x.getD j 0 = ventry Pb.rightHandSide i) →
      IsLineDofs mesh d.positions data u x Pb.dirichlet ∧ ∃ Q, linePost Real.sqrt data d rule g mesh exact Pb x = .ok Q ∧ Q.residual = 0 ∧
        Q.numeric = (List.range mesh.num0D).map (fun p => u (mesh.coords p)) ∧ Q.exact = Q.numeric ∧ Q.errorL2 = 0 ∧
        ((∀ c < mesh.num1D, ∀ t, 0 < t → t < 1 → exact.derivative (linePoint mesh c t) 2 * g.tangent c 2 = 0) → Q.errorH1 = 0) := by
  obtain ⟨mid, R⟩ := lineRef_of hP.order hP.nodes hP.element
  have H : DofHandler (lineNum k) 1 mesh.topo info data := dofHandler_of (E := 1) (by rw [← R.info_eq]; exact hP.created) hP.dofs hP.total
  obtain ⟨Pb, hPb, free, hfree, hsol⟩ := C143_patch hP hS
  obtain ⟨Pb', hPb', y, -, hy⟩ := C144_unique hP hw (fun c hc t t0 t1 => by rw [hS.diffusion c hc t t0 t1]; exact hκ c hc)
    (fun c hc t t0 t1 => by rw [hS.reaction c hc t t0 t1]; exact hσ c hc) hfix
  obtain rfl : Pb = Pb' := Except.ok.inj (hPb.symm.trans hPb')
  refine ⟨Pb, hPb, fun x hx hxs => ?_⟩
  obtain rfl : x = free := (hy x ⟨hx, hxs⟩).trans (hy free ⟨hfree.freeSize, fun i _ => hsol i⟩).symm
  refine ⟨hfree, ?_⟩
  have hcells : ∀ c < mesh.num1D, ∃ E, lineErrors data d rule g exact x Pb.dirichlet c = .ok E ∧ E.errorL2 = 0 ∧
      ((∀ t, 0 < t → t < 1 → exact.derivative (linePoint mesh c t) 2 * g.tangent c 2 = 0) → E.errorH1 = 0) := by
    intro c hc
    obtain ⟨E, U, hE, hU, u0, u1, uj, e1, -, -, e2⟩ := C145_errors_partial hP exact hfree.freeSize hfree.strongSize hc
    have hUP : U = P c := by
      have hn : ∀ i < k + 1, U.eval (d.positions.getD i 0) = (P c).eval (d.positions.getD i 0) := by
        intro i hi
        rw [← H.nodal R hfree.values hc (hS.value c hc) hi]
        rcases i with _ | _ | j
        · rw [lineList_zero, R.positions]; exact u0
        · rw [lineList_one, R.positions]; exact u1
        · have hj : j < k - 1 := by omega
          rw [lineList_inner hj, ← uj j hj, add_comm 2 j]
      rw [← R.reproduce hU (x := fun i => U.eval (d.positions.getD i 0)) fun i _ => rfl, R.reproduce (hS.degree c hc) hn]
    refine ⟨E, hE, ?_, fun hz => ?_⟩
    · rw [e1]
      refine (quadSum_congr (g := fun _ => 0 * 0) _ _ fun t ht => ?_).trans (by rw [quadSum_const_mul, zero_mul])
      obtain ⟨t0, t1⟩ := hP.gauss.inside t ht
      rw [hv, hS.value c hc t t0.le t1.le, hUP, sub_self]
      ring
    · rw [e2 hz]
      refine (quadSum_congr (g := fun _ => 0 * 0) _ _ fun t ht => ?_).trans (by rw [quadSum_const_mul, zero_mul])
      obtain ⟨t0, t1⟩ := hP.gauss.inside t ht
      rw [hd c hc t t0 t1, hUP, sub_self]
      ring
  have hnum : (List.range mesh.num0D).mapM (lineNumeric data x Pb.dirichlet) = .ok ((List.range mesh.num0D).map fun p => u (mesh.coords p)) := by
    refine mapM_ok _ _ _ fun p hp => ?_
    have hp' := List.mem_range.1 hp
    obtain ⟨z, -, hz, -⟩ := H.vertex hp'
    rw [lineNumeric_ok H hfree.freeSize hfree.strongSize hp', hfree.values _ z hz, lineDofPoint, if_pos rfl]
  have : Nonempty (LineCellErrors ℝ) := ⟨⟨0, 0, 0, 0⟩⟩
  choose! E hE hE1 hE2 using hcells
  have herr : (List.range mesh.num1D).mapM (lineErrors data d rule g exact x Pb.dirichlet) = .ok ((List.range mesh.num1D).map E) :=
    mapM_ok _ _ _ fun c hc => hE c (List.mem_range.1 hc)
  have hres : ∀ i < data.counters.dofs, lineResidual Pb x i = 0 := by
    intro i hi
    rw [lineResidual, row_entries, hx, hxs i hi, row_ventry, sub_self]
  refine ⟨_, by unfold linePost; rw [hnum, except_ok_bind, herr, except_ok_bind], ?_, rfl, ?_, ?_, fun hz => ?_⟩
  · dsimp only
    split_ifs with h
    · rw [List.sum_eq_zero, Real.sqrt_zero]
      intro y hy
      obtain ⟨i, hi, rfl⟩ := List.mem_map.1 hy
      rw [hres i (List.mem_range.1 hi), mul_zero]
    · rfl
  · simp only [hv]
  · dsimp only
    rw [List.sum_eq_zero, Real.sqrt_zero]
    intro y hy
    obtain ⟨z, hz, rfl⟩ := List.mem_map.1 hy
    obtain ⟨c, hc, rfl⟩ := List.mem_map.1 hz
    exact hE1 c (List.mem_range.1 hc)
  · dsimp only
    rw [List.sum_eq_zero, Real.sqrt_zero]
    intro y hy
    obtain ⟨z, hz', rfl⟩ := List.mem_map.1 hy
    obtain ⟨c, hc, rfl⟩ := List.mem_map.1 hz'
    exact hE2 c (List.mem_range.1 hc) (hz c (List.mem_range.1 hc))

/-- A mesh of two segments on the first axis: a vertex of strong type, one inside, one of weak type. -/
def twoTopo : Mesh where
  cell1DVertices := fun c => (c, c + 1)
  cell2DVertices := fun _ => []
  cell2DEdges := fun _ => []
  cell3DVertices := fun _ => []
  cell3DEdges := fun _ => []
  cell3DFaces := fun _ => []
  markers := fun d => if d = 0 then [1, 0, 2] else if d = 1 then [0, 0] else []

def twoBoundary (m : Nat) : Option BInfo := if m = 0 then some ⟨.none, 0⟩ else if m = 1 then some ⟨.strong, 1⟩ else if m = 2 then some ⟨.weak, 2⟩ else none

noncomputable def twoMesh : LineMesh ℝ := ⟨twoTopo, fun v i => if i = 0 then v / 2 else 0⟩

noncomputable def twoGeometry : LineGeometry ℝ := ⟨fun c i => if i = 0 then c / 2 else 0, fun _ i => if i = 0 then 1 / 2 else 0, fun _ => 1 / 2⟩

theorem gauss2_line : IsGauss 1 ⟨gauss2Points, [1 / 2, 1 / 2]⟩ where
  size := rfl
  inside := by
    have h0 := Real.sqrt_nonneg 3
    have h1 : Real.sqrt 3 < 3 := by rw [Real.sqrt_lt' (by norm_num)]; norm_num
    have h2 : 0 < Real.sqrt 3 := Real.sqrt_pos.2 (by norm_num)
    intro t ht
    simp only [gauss2Points, List.mem_cons, List.not_mem_nil, or_false] at ht
    rcases ht with rfl | rfl <;> constructor <;> linarith
  exact := fun q hq => gauss2_exact q (by omega)

theorem two_mesh : IsLineMesh twoMesh twoGeometry where
  origin := fun c _ => rfl
  tangent := by
    intro c _ i
    show (if i = 0 then (1 / 2 : ℝ) else 0) = (if i = 0 then ((c + 1 : Nat) : ℝ) / 2 else 0) - (if i = 0 then (c : ℝ) / 2 else 0)
    split_ifs
    · push_cast; ring
    · ring
  pos := fun _ _ => by norm_num [twoGeometry]
  len := fun _ _ => by norm_num [twoGeometry]

theorem two_problem : ∃ d info data, IsLineProblem 1 .equispaced [] d twoMesh twoGeometry twoBoundary info data ⟨gauss2Points, [1 / 2, 1 / 2]⟩ ∧
    IsAxisMesh twoMesh info ∧ (∀ test, LineFixed twoMesh info test) ∧ data.counters.dofs = 2 := by
  obtain ⟨d, hd, -⟩ := C55_layout (K := ℝ) 1 le_rfl []
  have hn : GoodNodes 1 .equispaced [] := List.nodup_nil
  obtain ⟨mid, R⟩ := lineRef_of le_rfl hn hd
  obtain ⟨info, hi, hb, data, hdata, ht, hc⟩ : ∃ info, createConstantInfo 1 twoTopo ⟨lineNum 1, twoBoundary⟩ = .ok info ∧
      ((typeAt info 0 0 = .strong ∧ typeAt info 0 1 = .none ∧ typeAt info 0 2 = .weak) ∧ typeAt info 1 0 = .none ∧ typeAt info 1 1 = .none) ∧
      ∃ data, createDOFs 1 info twoTopo = .ok data ∧ totalRequested info 1 = 3 ∧ data.counters.dofs = 2 := ⟨_, rfl, ⟨⟨rfl, rfl, rfl⟩, rfl, rfl⟩, _, rfl, rfl, rfl⟩
  obtain ⟨⟨b0, b1, b2⟩, e0, e1⟩ := hb
  have hcell : ∀ c < twoMesh.num1D, c = 0 ∨ c = 1 := by
    intro c h
    have : c < 2 := h
    omega
  have hvert : ∀ v < twoMesh.num0D, v = 0 ∨ v = 1 ∨ v = 2 := by
    intro v h
    have : v < 3 := h
    omega
  refine ⟨d, info, data, ⟨le_rfl, by norm_num, hn, hd, two_mesh, by rw [R.info_eq]; exact hi, hdata, by rw [ht]; norm_num, fun c h => ?_, gauss2_line⟩,
    ⟨fun c _ => ?_, fun c _ i hi => ?_, fun v hv h1 h2 => ?_⟩, fun test v hv => ⟨0, ?_, Or.inl b0⟩, hc⟩
  · rcases hcell c h with rfl | rfl
    · rw [e0]; simp
    · rw [e1]; simp
  · show (c : ℝ) / 2 < ((c + 1 : Nat) : ℝ) / 2
    push_cast
    linarith
  · show (if i = 0 then (c : ℝ) / 2 else 0) = if i = 0 then ((c + 1 : Nat) : ℝ) / 2 else 0
    rw [if_neg hi, if_neg hi]
  · rcases hvert v hv with rfl | rfl | rfl
    · exact absurd b0 h1
    · rfl
    · exact absurd b2 h2
  · have s10 : LineStep twoMesh 1 0 := ⟨0, by show 0 < 2; omega, Or.inr rfl⟩
    have s21 : LineStep twoMesh 2 1 := ⟨1, by show 1 < 2; omega, Or.inr rfl⟩
    rcases hvert v hv with rfl | rfl | rfl
    · exact .refl
    · exact .single s10
    · exact (Relation.ReflTransGen.single s21).tail s10

/-- The hypotheses of C142 to C145 hold for `Patch_Test` of order 1 on two segments, with 2 unknowns. -/
example : ∃ d info data P, IsLineProblem 1 .equispaced [] d twoMesh twoGeometry twoBoundary info data ⟨gauss2Points, [1 / 2, 1 / 2]⟩ ∧ data.counters.dofs = 2 ∧
    IsLineSolution 1 twoMesh info twoGeometry.length (patchTest1D 1) (patchExact1D 1).value P (fun _ => 1) (fun _ => 0) ∧ LineFixed twoMesh info (patchTest1D (K := ℝ) 1) ∧
    (∀ w ∈ [(1 / 2 : ℝ), 1 / 2], 0 ≤ w) := by
  obtain ⟨d, info, data, h, ha, hf, hc⟩ := two_problem
  obtain ⟨P, hP⟩ := C143_patch_test (k := 1) two_mesh ha
  exact ⟨d, info, data, P, h, hc, hP, hf _, by intro w hw; simp at hw; rw [hw]; norm_num⟩

/-- One segment along the third axis, both ends of strong type. -/
def upTopo : Mesh := { twoTopo with markers := fun d => if d = 0 then [1, 1] else if d = 1 then [0] else [] }

noncomputable def upMesh : LineMesh ℝ := ⟨upTopo, fun v i => if i = 2 then v else 0⟩

noncomputable def upGeometry : LineGeometry ℝ := ⟨fun c i => if i = 2 then c else 0, fun _ i => if i = 2 then 1 else 0, fun _ => 1⟩

/-- The solution `z` of the equation without source. -/
def upExact : LineExact ℝ := ⟨fun p => p 2, fun _ i => if i = 2 then 1 else 0⟩

/-- **C145 (the property fails).** On a segment along the third axis the solution `z` is computed exactly, and the H1 error that is reported is 1 instead of 0. -/
theorem C145_vertical : ∃ d info data, IsLineProblem 1 .equispaced [] d upMesh upGeometry twoBoundary info data ⟨gauss2Points, [1 / 2, 1 / 2]⟩ ∧
    (∀ c < upMesh.num1D, ∀ t, ∑ i ∈ Finset.range 3, upExact.derivative (linePoint upMesh c t) i * upGeometry.tangent c i = 1 ∧ upExact.value (linePoint upMesh c t) = t) ∧
    ∀ free strong, IsLineDofs upMesh d.positions data upExact.value free strong →
      ∃ E, lineErrors data d ⟨gauss2Points, [1 / 2, 1 / 2]⟩ upGeometry upExact free strong 0 = .ok E ∧ E.errorL2 = 0 ∧ E.errorH1 = 1 := by
  obtain ⟨d, hd, -⟩ := C55_layout (K := ℝ) 1 le_rfl []
  have hn : GoodNodes 1 .equispaced [] := List.nodup_nil
  obtain ⟨mid, R⟩ := lineRef_of le_rfl hn hd
  obtain ⟨info, hi, hb, data, hdata, ht⟩ : ∃ info, createConstantInfo 1 upTopo ⟨lineNum 1, twoBoundary⟩ = .ok info ∧ typeAt info 1 0 = .none ∧
      ∃ data, createDOFs 1 info upTopo = .ok data ∧ totalRequested info 1 = 2 := ⟨_, rfl, rfl, _, rfl, rfl⟩
  have hcell : ∀ c < upMesh.num1D, c = 0 := by
    intro c h
    have : c < 1 := h
    omega
  have hmesh : IsLineMesh upMesh upGeometry := by
    refine ⟨fun c _ => rfl, fun c _ i => ?_, fun _ _ => by norm_num [upGeometry], fun _ _ => by norm_num [upGeometry]⟩
    show (if i = 2 then (1 : ℝ) else 0) = (if i = 2 then ((c + 1 : Nat) : ℝ) else 0) - (if i = 2 then (c : ℝ) else 0)
    split_ifs
    · push_cast; ring
    · ring
  have hP : IsLineProblem 1 .equispaced [] d upMesh upGeometry twoBoundary info data ⟨gauss2Points, [1 / 2, 1 / 2]⟩ :=
    ⟨le_rfl, by norm_num, hn, hd, hmesh, by rw [R.info_eq]; exact hi, hdata, by rw [ht]; norm_num, fun c h => by rw [hcell c h, hb]; simp, gauss2_line⟩
  have hpt : ∀ t, upExact.value (linePoint upMesh 0 t) = t := by
    intro t
    show (if 2 = 2 then ((0 : Nat) : ℝ) else 0) + t * ((if 2 = 2 then ((0 + 1 : Nat) : ℝ) else 0) - (if 2 = 2 then ((0 : Nat) : ℝ) else 0)) = t
    simp
  refine ⟨d, info, data, hP, fun c hc t => ?_, fun free strong hf => ?_⟩
  · rw [hcell c hc]
    refine ⟨?_, hpt t⟩
    simp [upExact, upGeometry]
  · have H : DofHandler (lineNum 1) 1 upMesh.topo info data := dofHandler_of (E := 1) (by rw [← R.info_eq]; exact hP.created) hP.dofs hP.total
    have h0 : 0 < upMesh.num1D := by show 0 < 1; omega
    obtain ⟨E, hE, e1, -, e3, -⟩ := line_errors (g := upGeometry) le_rfl R hP.gauss.size H upExact hf.freeSize hf.strongSize h0
    have hU : lineFunction 1 d upMesh.topo data free strong 0 = X :=
      R.reproduce (by simp) fun i hi => H.nodal R hf.values h0 (P := X) (fun t _ _ => by rw [hpt, eval_X]) hi
    refine ⟨E, hE, ?_, ?_⟩
    · rw [e1, hU]
      refine Finset.sum_eq_zero fun q _ => ?_
      rw [segF_point hmesh h0, hpt, eval_X, sub_self]
      ring
    · rw [e3, hU]
      simp only [derivative_X, eval_one]
      norm_num [Finset.sum_range_succ, gauss2Points, tangentDerivative, upExact, upGeometry]

end PolyDiM
