import Verif.Spec.LineMesh
import Verif.Props.Fem1D
import Verif.Props.Elliptic
import Verif.Lemmas.AnyDofs
import Mathlib.Analysis.Calculus.Deriv.Polynomial

/-!
# Lemmas: the finite element on one segment
-/

namespace PolyDiM

open Spec Polynomial

/-- What is known about the reference element. -/
structure LineRef (k : Nat) (d : Fem1Data ℝ) (mid : List ℝ) : Prop where
  num0D : d.num0D = 1
  num1D : d.num1D = k - 1
  numBasis : d.numBasis = k + 1
  positions : d.positions = 0 :: 1 :: mid
  size : d.positions.length = k + 1
  nodup : d.positions.Nodup
  coef : d.coef = lagCoefficients d.positions
  unit : ∀ i, 0 ≤ d.positions.getD i 0 ∧ d.positions.getD i 0 ≤ 1

theorem lineRef_of {k : Nat} (hk : 1 ≤ k) {ty : Fem1Type} {lob : List ℝ} (hn : GoodNodes k ty lob) {d : Fem1Data ℝ} (hd : fem1Create k ty lob = .ok d) :
    ∃ mid, LineRef k d mid := by
  have hlob : lob.Nodup := by
    cases ty
    · exact hn
    · exact hn.1
    · exact hn.elim
  obtain ⟨h1, h2, -, -⟩ := C55_basis k ty lob hlob d hd
  have hpos : ∃ mid, d.positions = 0 :: 1 :: mid ∧ ∀ x ∈ mid, 0 ≤ x ∧ x ≤ 1 := by
    cases ty with
    | equispaced =>
      obtain ⟨d', hd', -, -, -, -, hp⟩ := C55_layout (K := ℝ) k hk lob
      obtain rfl : d' = d := Except.ok.inj (hd'.symm.trans hd)
      refine ⟨_, hp, ?_⟩
      intro x hx
      obtain ⟨j, hj, rfl⟩ := List.mem_map.1 hx
      rw [List.mem_range] at hj
      have hk0 : (0 : ℝ) < k := by exact_mod_cast hk
      have : (j : ℝ) + 1 ≤ k := by exact_mod_cast (show j + 1 ≤ k by omega)
      exact ⟨by positivity, (div_le_one hk0).2 this⟩
    | gaussLobatto =>
      obtain ⟨-, mid, rfl, hm, hb⟩ := hn
      obtain ⟨d', hd', hp⟩ := C55_layout_lobatto k hk 0 1 mid hm
      obtain rfl : d' = d := Except.ok.inj (hd'.symm.trans hd)
      exact ⟨mid, hp, hb⟩
    | other => exact hn.elim
  obtain ⟨mid, hp, hm⟩ := hpos
  obtain ⟨j, rfl⟩ : ∃ j, k = j + 1 := ⟨k - 1, by omega⟩
  have hcr : ∃ pts, pts.length = j + 2 ∧ pts.Nodup ∧ d = ⟨j + 1, 1, j, j + 2, fem1Pos pts j, lagCoefficients (fem1Pos pts j)⟩ := by
    obtain ⟨pts, hpts, hnd⟩ : ∃ pts, fem1Points (j + 1) ty lob = .ok pts ∧ pts.Nodup := by
      cases ty with
      | equispaced => exact ⟨_, rfl, linSpaced_nodup j⟩
      | gaussLobatto =>
        obtain ⟨-, mid, rfl, hm, hb⟩ := hn
        exact ⟨_, if_pos (by simp [hm]), hlob⟩
      | other => exact hn.elim
    refine ⟨pts, fem1Points_length hpts, hnd, ?_⟩
    rw [fem1Create_ok j ty lob pts hpts (fem1Points_length hpts)] at hd
    exact (Except.ok.inj hd).symm
  obtain ⟨pts, hpl, hpn, hd'⟩ := hcr
  refine ⟨mid, by rw [hd'], by rw [hd']; rfl, h2, hp, by rw [h1, h2], ?_, by rw [hd'], ?_⟩
  · rw [hd']; exact fem1Pos_nodup hpl hpn
  · intro i
    rw [hp, List.getD_eq_getElem?_getD]
    cases h : (0 :: 1 :: mid)[i]? with
    | none => simp
    | some x =>
      rw [Option.getD_some]
      have hx := List.mem_of_getElem? h
      simp only [List.mem_cons] at hx
      rcases hx with rfl | rfl | hx
      · norm_num
      · norm_num
      · exact hm x hx

/-- The functions of the reference element. -/
noncomputable def lineBasis (d : Fem1Data ℝ) (i : Nat) : ℝ[X] := Lagrange.basis (Finset.range d.positions.length) (fun j => d.positions.getD j 0) i

section

variable {k : Nat} {d : Fem1Data ℝ} {mid : List ℝ}

theorem LineRef.value (R : LineRef k d mid) (x : ℝ) {i : Nat} (hi : i < k + 1) : fem1Value d x i = .ok ((lineBasis d i).eval x) := by
  rw [fem1Value, R.coef]
  exact lagValue_ok _ x (by rw [R.size]; exact hi)

theorem LineRef.value_der (R : LineRef k d mid) (x : ℝ) {i : Nat} (hi : i < k + 1) : fem1Derivative d x i = .ok ((Polynomial.derivative (lineBasis d i)).eval x) := by
  obtain ⟨f, f', h1, h2, h3⟩ := C31_derivative d.positions d.coef (by rw [R.coef]; simp [lagCoefficients]) i (by rw [R.size]; exact hi)
  have hf : f = fun x => (lineBasis d i).eval x := by
    funext y
    exact Except.ok.inj ((h1 y).symm.trans (R.value y hi))
  rw [fem1Derivative, h2, (h3 x).unique (by rw [hf]; exact (lineBasis d i).hasDerivAt x)]

/-- The polynomial with given values at the nodes. -/
noncomputable def lineInterp (k : Nat) (d : Fem1Data ℝ) (x : Nat → ℝ) : ℝ[X] := ∑ i ∈ Finset.range (k + 1), C (x i) * lineBasis d i

theorem LineRef.reproduce (R : LineRef k d mid) {p : ℝ[X]} (hp : p.natDegree ≤ k) {x : Nat → ℝ} (hx : ∀ i < k + 1, x i = p.eval (d.positions.getD i 0)) :
    lineInterp k d x = p := by
  refine Polynomial.funext fun t => ?_
  obtain ⟨ℓ, h1, -, h3⟩ := C30_reproduction d.positions R.nodup t
  rw [← h3 p (by rw [R.size]; exact lt_of_le_of_lt degree_le_natDegree (by exact_mod_cast Nat.lt_succ_of_le hp)), lineInterp, eval_finsetSum, R.size]
  refine Finset.sum_congr rfl fun i hi => ?_
  rw [Finset.mem_range] at hi
  rw [eval_mul, eval_C, hx i hi]
  congr 1
  have := (h1 i (by rw [R.size]; exact hi)).symm.trans (lagValue_ok _ t (by rw [R.size]; exact hi))
  exact (Except.ok.inj this).symm

theorem LineRef.interp_degree (R : LineRef k d mid) (x : Nat → ℝ) : (lineInterp k d x).natDegree ≤ k := by
  refine natDegree_sum_le_of_forall_le _ _ fun i hi => ?_
  refine (natDegree_C_mul_le _ _).trans ?_
  have hi' : i ∈ Finset.range d.positions.length := by rw [R.size]; exact hi
  have := Lagrange.natDegree_basis (nodes_injOn R.nodup) hi'
  unfold lineBasis
  rw [this, Finset.card_range, R.size]
  omega

theorem LineRef.interp_node (R : LineRef k d mid) (x : Nat → ℝ) {i : Nat} (hi : i < k + 1) : (lineInterp k d x).eval (d.positions.getD i 0) = x i := by
  rw [lineInterp, eval_finsetSum, Finset.sum_eq_single i]
  · have := Lagrange.eval_basis_self (nodes_injOn R.nodup) (show i ∈ Finset.range d.positions.length by rw [R.size]; exact Finset.mem_range.2 hi)
    rw [eval_mul, eval_C, lineBasis, this, mul_one]
  · intro j hj hji
    have := Lagrange.eval_basis_of_ne (s := Finset.range d.positions.length) (v := fun j => d.positions.getD j 0) hji (by rw [R.size]; exact Finset.mem_range.2 hi)
    rw [eval_mul, lineBasis, this, mul_zero]
  · intro h
    exact absurd (Finset.mem_range.2 hi) h

theorem LineRef.interp_zero (R : LineRef k d mid) (x : Nat → ℝ) : (lineInterp k d x).eval 0 = x 0 := by
  have := R.interp_node x (show 0 < k + 1 by omega)
  rwa [R.positions] at this

theorem LineRef.interp_one (R : LineRef k d mid) (hk : 1 ≤ k) (x : Nat → ℝ) : (lineInterp k d x).eval 1 = x 1 := by
  have := R.interp_node x (show 1 < k + 1 by omega)
  rwa [R.positions] at this

theorem map_getD {α β : Type} (l : List α) (z : α) (f : α → β) : l.map f = (List.range l.length).map fun q => f (l.getD q z) := by
  refine List.ext_getElem? fun q => ?_
  by_cases hq : q < l.length
  · simp [hq, List.getD_eq_getElem?_getD]
  · simp [hq]

theorem LineRef.table (R : LineRef k d mid) {f : ℝ → Nat → Except Fault ℝ} {F : ℝ → Nat → ℝ} (hf : ∀ t, ∀ i < k + 1, f t i = .ok (F t i)) (ts : List ℝ) :
    ∃ T, fem1Table d f ts = .ok ⟨ts.length, k + 1, T⟩ ∧ ∀ q < ts.length, ∀ i < k + 1, T q i = F (ts.getD q 0) i := by
  unfold fem1Table
  rw [mapM_ok _ (fun t => (List.range (k + 1)).map (F t)) ts, except_ok_bind, R.numBasis]
  · refine ⟨_, rfl, fun q hq i hi => ?_⟩
    simp [List.getD_eq_getElem?_getD, hq, hi]
  · intro t _
    rw [R.numBasis]
    exact mapM_ok _ _ _ fun i hi => hf t i (List.mem_range.1 hi)

theorem LineRef.mapValues (R : LineRef k d mid) (hk : 1 ≤ k) (Q m : Nat) (T : Nat → Nat → ℝ) :
    ∃ T', fem1MapValues d ⟨Q, m, T⟩ = .ok ⟨Q, k + 1, T'⟩ ∧ ∀ q, ∀ i < k + 1, T' q i = T q i := by
  unfold fem1MapValues
  rw [mapM_ok _ (fun i => i), except_ok_bind, R.numBasis]
  · refine ⟨_, rfl, fun q i hi => ?_⟩
    simp [List.getD_eq_getElem?_getD, hi]
  · intro i hi
    rw [R.numBasis, List.mem_range] at hi
    rw [fem1Order_eq, R.num0D, R.num1D, show 2 * 1 + (k - 1) = k + 1 by omega, scatter_id _ _ hi]

/-- The tables of the local space. -/
theorem LineRef.space (R : LineRef k d mid) (hk : 1 ≤ k) (rule : Rule ℝ ℝ) (g : LineGeometry ℝ) (c : Nat) :
    ∃ T D, lineSpace d rule g c = .ok ⟨fem1Internal rule (fem1Map (g.origin c) (g.tangent c) (g.length c)), ⟨rule.points.length, k + 1, T⟩, [⟨rule.points.length, k + 1, D⟩]⟩ ∧
      ∀ q < rule.points.length, ∀ i < k + 1, T q i = (lineBasis d i).eval (rule.points.getD q 0) ∧
        D q i = (Polynomial.derivative (lineBasis d i)).eval (rule.points.getD q 0) / g.length c := by
  obtain ⟨T, hT, hTe⟩ := R.table (fun t i hi => R.value t hi) rule.points
  obtain ⟨D, hD, hDe⟩ := R.table (fun t i hi => R.value_der t hi) rule.points
  obtain ⟨T', hT', hTe'⟩ := R.mapValues hk rule.points.length (k + 1) T
  obtain ⟨D', hD', hDe'⟩ := R.mapValues hk rule.points.length (k + 1) fun p i => D p i / (fem1Map (g.origin c) (g.tangent c) (g.length c)).length
  refine ⟨T', D', ?_, fun q hq i hi => ?_⟩
  · unfold lineSpace
    dsimp only
    rw [hT, except_ok_bind, hD, except_ok_bind, hT', except_ok_bind]
    unfold fem1MapDerivatives
    rw [hD', except_ok_bind]
  · rw [hTe' q i hi, hTe q hq i hi, hDe' q i hi, hDe q hq i hi]
    exact ⟨rfl, rfl⟩

theorem interp_table (k : Nat) (d : Fem1Data ℝ) (v : Nat → ℝ) (t : ℝ) :
    ∑ i ∈ Finset.range (k + 1), v i * (lineBasis d i).eval t = (lineInterp k d v).eval t := by
  rw [lineInterp, eval_finsetSum]
  exact Finset.sum_congr rfl fun i _ => by rw [eval_mul, eval_C]

theorem interp_table_der (k : Nat) (d : Fem1Data ℝ) (v : Nat → ℝ) (t : ℝ) :
    ∑ i ∈ Finset.range (k + 1), v i * (Polynomial.derivative (lineBasis d i)).eval t = (Polynomial.derivative (lineInterp k d v)).eval t := by
  rw [lineInterp, derivative_sum, eval_finsetSum]
  exact Finset.sum_congr rfl fun i _ => by rw [derivative_C_mul, eval_mul, eval_C]

/-- The matrix and the right-hand side of one segment, in terms of the polynomials with the given nodal values. -/
theorem LineRef.local_form (R : LineRef k d mid) (hk : 1 ≤ k) {rule : Rule ℝ ℝ} (hrule : rule.weights.length = rule.points.length) (g : LineGeometry ℝ) (c : Nat)
    (test : LineTest ℝ) :
    ∃ s A b, lineSpace d rule g c = .ok s ∧ lineLocal s test = .ok (A, b) ∧ A.rows = k + 1 ∧ A.cols = k + 1 ∧ b.rows = k + 1 ∧ b.cols = 1 ∧
      (∀ v x : Nat → ℝ, ∑ i ∈ Finset.range (k + 1), v i * ∑ j ∈ Finset.range (k + 1), A.ent i j * x j
        = ∑ q ∈ Finset.range rule.points.length, rule.weights.getD q 0 * |g.length c| *
            (test.diffusion (segF (fem1Map (g.origin c) (g.tangent c) (g.length c)) (rule.points.getD q 0)) *
                (((Polynomial.derivative (lineInterp k d v)).eval (rule.points.getD q 0) / g.length c)
                  * ((Polynomial.derivative (lineInterp k d x)).eval (rule.points.getD q 0) / g.length c))
              + test.reaction (segF (fem1Map (g.origin c) (g.tangent c) (g.length c)) (rule.points.getD q 0)) *
                ((lineInterp k d v).eval (rule.points.getD q 0) * (lineInterp k d x).eval (rule.points.getD q 0)))) ∧
      ∀ v : Nat → ℝ, ∑ i ∈ Finset.range (k + 1), v i * b.ent i 0
        = ∑ q ∈ Finset.range rule.points.length, rule.weights.getD q 0 * |g.length c| *
            (test.source (segF (fem1Map (g.origin c) (g.tangent c) (g.length c)) (rule.points.getD q 0)) * (lineInterp k d v).eval (rule.points.getD q 0)) := by
  obtain ⟨T, D, hs, ht⟩ := R.space hk rule g c
  set m := fem1Map (g.origin c) (g.tangent c) (g.length c) with hm
  have hpts : ∀ f : (Nat → ℝ) → ℝ, (fem1Internal rule m).points.map f = (List.range rule.points.length).map fun q => f (segF m (rule.points.getD q 0)) := by
    intro f
    rw [fem1Internal, List.map_map, map_getD rule.points 0]
    rfl
  have hwts : (fem1Internal rule m).weights = (List.range rule.points.length).map fun q => rule.weights.getD q 0 * |g.length c| := by
    rw [fem1Internal]
    dsimp only
    rw [map_getD rule.weights 0, hrule]
    rfl
  obtain ⟨A, hA, hAr, hAc, -, hAf⟩ := C53_diffusion rule.points.length (k + 1) (k + 1) 1 le_rfl (fun q => rule.weights.getD q 0 * |g.length c|)
    (fun q => test.diffusion (segF m (rule.points.getD q 0))) (fun _ => D) (fun _ => D)
  obtain ⟨M, hM, hMr, hMc, -, hMf⟩ := C53_reaction rule.points.length (k + 1) (k + 1) (fun q => rule.weights.getD q 0 * |g.length c|)
    (fun q => test.reaction (segF m (rule.points.getD q 0))) T T
  obtain ⟨b, hb, hbr, hbc, -, hbf⟩ := C53_forcing rule.points.length (k + 1) (fun q => rule.weights.getD q 0 * |g.length c|)
    (fun q => test.source (segF m (rule.points.getD q 0))) T
  refine ⟨_, ⟨k + 1, k + 1, fun i j => A.ent i j + M.ent i j⟩, b, hs, ?_, rfl, rfl, hbr, hbc, fun v x => ?_, fun v => ?_⟩
  · unfold lineLocal cellDiffusionSame cellReactionSame
    rw [hpts, hpts, hpts, hwts]
    have hA' : cellDiffusion ((List.range rule.points.length).map fun q => test.diffusion (segF m (rule.points.getD q 0))) [⟨rule.points.length, k + 1, D⟩]
        [⟨rule.points.length, k + 1, D⟩] ((List.range rule.points.length).map fun q => rule.weights.getD q 0 * |g.length c|) = .ok A := hA
    have hM' : cellTerm ((List.range rule.points.length).map fun q => test.reaction (segF m (rule.points.getD q 0))) ⟨rule.points.length, k + 1, T⟩
        ⟨rule.points.length, k + 1, T⟩ ((List.range rule.points.length).map fun q => rule.weights.getD q 0 * |g.length c|) = .ok M := hM
    rw [hA', except_ok_bind, hM', except_ok_bind, hb, except_ok_bind, DMat.add, if_pos ⟨by rw [hAr, hMr], by rw [hAc, hMc]⟩, except_ok_bind, hAr, hAc]
  · dsimp only
    have : ∀ i, ∑ j ∈ Finset.range (k + 1), (A.ent i j + M.ent i j) * x j = ∑ j ∈ Finset.range (k + 1), A.ent i j * x j + ∑ j ∈ Finset.range (k + 1), M.ent i j * x j := by
      intro i
      rw [← Finset.sum_add_distrib]
      exact Finset.sum_congr rfl fun j _ => by ring
    simp only [this, mul_add]
    rw [Finset.sum_add_distrib, hAf x v, hMf x v, ← Finset.sum_add_distrib]
    refine Finset.sum_congr rfl fun q hq => ?_
    have hq' := Finset.mem_range.1 hq
    have h1 : ∀ v : Nat → ℝ, ∑ i ∈ Finset.range (k + 1), v i * T q i = (lineInterp k d v).eval (rule.points.getD q 0) := by
      intro v
      rw [← interp_table]
      exact Finset.sum_congr rfl fun i hi => by rw [(ht q hq' i (Finset.mem_range.1 hi)).1]
    have h2 : ∀ v : Nat → ℝ, ∑ i ∈ Finset.range (k + 1), v i * D q i = (Polynomial.derivative (lineInterp k d v)).eval (rule.points.getD q 0) / g.length c := by
      intro v
      rw [← interp_table_der, Finset.sum_div]
      exact Finset.sum_congr rfl fun i hi => by rw [(ht q hq' i (Finset.mem_range.1 hi)).2, mul_div_assoc]
    rw [h1, h1, Finset.sum_range_one, h2, h2]
  · rw [hbf v]
    refine Finset.sum_congr rfl fun q hq => ?_
    have hq' := Finset.mem_range.1 hq
    rw [← interp_table]
    congr 2
    exact Finset.sum_congr rfl fun i hi => by rw [(ht q hq' i (Finset.mem_range.1 hi)).1]

end

end PolyDiM
