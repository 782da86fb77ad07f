import Verif.Lemmas.BrinkmanTest
import Verif.Lemmas.ElasticPost
import Verif.Props.ElasticPatch2D

/-!
# C165: what `PostProcessSolution` of the elasticity example computes
-/

namespace PolyDiM

open Spec MvPolynomial

variable {k : Nat} {mesh : PlaneMesh ℝ} {poly : Nat → VemPolygon ℝ} {n : Nat → Nat} {len : Nat → Nat → ℝ} {dir : Nat → Nat → Bool} {nrm : Nat → Nat → ℝ × ℝ}
  {triangle : Nat → Rule (ℝ × ℝ) ℝ} {edge : Nat → Rule ℝ ℝ} {ts ws : List ℝ} {w : ℝ} {lu llt : Solver ℝ} {ref : VemRef2D ℝ} {boundary : Nat → Option BInfo} {info : MeshInfo}
  {data : DOFsData}

/-- The entry of the residual: row `i` of the matrix applied to the solution minus entry `i` of the right hand side. -/
theorem elasticResidual_eq (P : ElasticProblem ℝ) (free : List ℝ) (i : Nat) :
    elasticResidual P free i = ∑ j ∈ Finset.range free.length, entry P.globalMatrix i j * free.getD j 0 - ventry P.rightHandSide i := by
  have h1 : ∀ l : List (Nat × Nat × ℝ), ((l.filter fun t => t.1 = i).map fun t => t.2.2 * free.getD t.2.1 0).sum
      = ∑ j ∈ Finset.range free.length, entry l i j * free.getD j 0 := by
    intro l
    induction l with
    | nil => simp [entry]
    | cons t l ih =>
      have hc : ∀ j, entry (t :: l) i j = (if t.1 = i ∧ t.2.1 = j then t.2.2 else 0) + entry l i j := fun j => by simp [entry]
      simp only [hc, add_mul, Finset.sum_add_distrib, ← ih]
      by_cases h : t.1 = i
      · simp only [List.filter_cons, h, decide_true, if_true, List.map_cons, List.sum_cons, true_and]
        congr 1
        by_cases hj : t.2.1 < free.length
        · rw [Finset.sum_eq_single t.2.1 (fun j _ hne => by rw [if_neg (Ne.symm hne), zero_mul]) fun hn => absurd (Finset.mem_range.2 hj) hn, if_pos rfl]
        · rw [List.getD_eq_getElem?_getD, List.getElem?_eq_none (by omega), Option.getD_none, mul_zero]
          refine (Finset.sum_eq_zero fun j hj' => ?_).symm
          rw [if_neg (by have := Finset.mem_range.1 hj'; omega), zero_mul]
      · simp [h]
  have h2 : ∀ l : List (Nat × ℝ), ((l.filter fun t => t.1 = i).map Prod.snd).sum = ventry l i := by
    intro l
    induction l with
    | nil => simp [ventry]
    | cons t l ih =>
      have hc : ventry (t :: l) i = (if t.1 = i then t.2 else 0) + ventry l i := by simp [ventry]
      rw [hc, ← ih]
      by_cases h : t.1 = i <;> simp [h]
  rw [elasticResidual, h1, h2]

/-- The numeric displacement of a vertex. -/
theorem elasticNumeric_ok (H : Handler k mesh.topo info data) (hov : 2 * data.counters.dofs < 2 ^ 32) (hov' : 2 * data.counters.strongs < 2 ^ 32) {b : Nat} {f₀ f₁ s₀ s₁ : List ℝ}
    (hf0 : f₀.length = data.counters.dofs) (hf1 : f₁.length = data.counters.dofs) (hs0 : s₀.length = data.counters.strongs) (hs1 : s₁.length = data.counters.strongs)
    {p : Nat} (hp : p < mesh.num0D) {D S : Nat} :
    elasticNumeric data ⟨b, D, S, [0, data.counters.dofs], [0, data.counters.strongs]⟩ (f₀ ++ f₁) (s₀ ++ s₁) 0 p = .ok (some (valueOf data f₀ s₀ ⟨0, p, 0⟩)) ∧
      elasticNumeric data ⟨b, D, S, [0, data.counters.dofs], [0, data.counters.strongs]⟩ (f₀ ++ f₁) (s₀ ++ s₁) 1 p = .ok (some (valueOf data f₁ s₁ ⟨0, p, 0⟩)) := by
  obtain ⟨x, bi, hx, -, -, hlen, -⟩ := H.cell 0 (by norm_num) p hp
  have hl : x.dofs.length = 1 := hlen
  obtain ⟨z, hz⟩ := List.length_eq_one_iff.1 hl
  have hlook : lookup data ⟨0, p, 0⟩ = some z := by
    simp [lookup, dofAt, hx, hz]
  have hkn := H.known _ z hlook
  obtain ⟨ty, g⟩ := z
  have hget : ∀ (a c : List ℝ) (g : Nat), g < a.length → unchecked (a ++ c) g = .ok (a.getD g 0) := fun a c g hg =>
    (unchecked_ok_iff _ _ _).2 (by rw [List.getElem?_append_left hg]; simp [List.getD_eq_getElem?_getD, hg])
  have hget' : ∀ (a c : List ℝ) (g N : Nat), a.length = N → g < c.length → unchecked (a ++ c) (g + N) = .ok (c.getD g 0) := fun a c g N hN hg =>
    (unchecked_ok_iff _ _ _).2 (by rw [List.getElem?_append_right (by omega), hN, Nat.add_sub_cancel]; simp [List.getD_eq_getElem?_getD, hg])
  have hu : ∀ m, m < 2 ^ 32 → u32 m = m := fun m hm => by rw [u32]; exact Nat.mod_eq_of_lt hm
  unfold elasticNumeric
  simp only [(atIdx_ok_iff _ _ _).2 hx]
  have h00 : ∀ a c : Nat, unchecked [a, c] 0 = .ok a ∧ unchecked [a, c] 1 = .ok c := fun a c => ⟨rfl, rfl⟩
  simp only [(h00 _ _).1, (h00 _ _).2, except_ok_bind, hz]
  cases ty with
  | unknwon => exact absurd rfl hkn
  | dof =>
    have hg := H.free _ g hlook
    simp only [elasticNumericLoop, valueOf, hlook, add_zero]
    rw [hu g (by omega), hu (g + _) (by omega), hget _ _ _ (by omega), hget' _ _ _ _ hf0 (by omega)]
    exact ⟨rfl, rfl⟩
  | strong =>
    have hg := H.strong _ g hlook
    simp only [elasticNumericLoop, valueOf, hlook, add_zero]
    rw [hu g (by omega), hu (g + _) (by omega), hget _ _ _ (by omega), hget' _ _ _ _ hs0 (by omega)]
    exact ⟨rfl, rfl⟩

theorem nanSum_some (l : List ℝ) : nanSum (l.map some) = some l.sum := by
  induction l with
  | nil => rfl
  | cons a l ih =>
    rw [List.map_cons, nanSum, List.foldr_cons]
    rw [nanSum] at ih
    rw [ih]
    rfl

/-- C165, one cell: the L2 error is the quadrature of the squared distance of the projections of the two components from the exact displacement, the H1 error that of the squared distances
of the four projected derivatives, the norms are the same without the exact functions; without exact functions the errors are not numbers. -/
theorem C165_errors {n : Nat} {V : Nat → ℝ × ℝ} {len : Nat → ℝ} {dir : Nat → Bool} {nrm : Nat → ℝ × ℝ} {poly : VemPolygon ℝ}
    (hE : IsElement poly n V len dir nrm) (hT : IsTables k triangle edge ts ws w) (hlu : SolvesRegular lu) (hllt : SolvesPosDef llt) (hpos : 0 < poly.measure) :
    ∃ ref s N, vemRef2D triangle edge k = .ok ref ∧ vemCreate2D lu llt ref poly = .ok s ∧ N = n + n * (k - 1) + k * (k - 1) / 2 ∧
      ∀ (exact : Option (ElasticExact ℝ)) (dofs : List ℝ), dofs.length = 2 * N → elasticErrors (vemCell2D ref poly s) exact dofs = .ok
      ⟨exact.map fun e => quadSum s.internal.points s.internal.weights fun p => ∑ d ∈ Finset.range 2,
          (polyOf k poly.centroid poly.diameter (apply s.pi0k fun i => dofs.getD (d * N + i) 0) p - e.value p d) ^ 2,
       quadSum s.internal.points s.internal.weights fun p => ∑ d ∈ Finset.range 2, polyOf k poly.centroid poly.diameter (apply s.pi0k fun i => dofs.getD (d * N + i) 0) p ^ 2,
       exact.map fun e => quadSum s.internal.points s.internal.weights fun p => ∑ d ∈ Finset.range 2, ∑ h ∈ Finset.range 2,
          (polyOf (k - 1) poly.centroid poly.diameter (apply (if h = 0 then s.derX else s.derY) fun i => dofs.getD (d * N + i) 0) p - e.derivative p (3 * d + h)) ^ 2,
       quadSum s.internal.points s.internal.weights fun p => ∑ d ∈ Finset.range 2, ∑ h ∈ Finset.range 2,
          polyOf (k - 1) poly.centroid poly.diameter (apply (if h = 0 then s.derX else s.derY) fun i => dofs.getD (d * N + i) 0) p ^ 2⟩ := by
  obtain ⟨ref, s, hr, hc, h⟩ := errors_vem hE hT hlu hllt hpos
  refine ⟨ref, s, _, hr, hc, rfl, fun exact dofs hl => ?_⟩
  rw [h exact dofs hl]
  have hg : ∀ p d h, projGrad k poly s (compOf (n + n * (k - 1) + k * (k - 1) / 2) fun i => dofs.getD i 0) p d h
      = polyOf (k - 1) poly.centroid poly.diameter (apply (if h = 0 then s.derX else s.derY) fun i => dofs.getD (d * (n + n * (k - 1) + k * (k - 1) / 2) + i) 0) p := by
    intro p d h
    rw [projGrad]
    split_ifs <;> rfl
  simp only [hg]
  rfl

-- C165, one cell: the first triangle of the mesh of C163, order 2, any vector of DOFs, no exact functions
example : ∃ (lu llt : Solver ℝ) (ref : VemRef2D ℝ) (s : VemSpace2D ℝ), vemCreate2D lu llt ref (patchPoly 0) = .ok s ∧ ∀ dofs : List ℝ, dofs.length = 14 → ∃ a b, elasticErrors (vemCell2D ref (patchPoly 0) s) none dofs = .ok ⟨none, a, none, b⟩ := by
  obtain ⟨lu, h1, h2⟩ := exists_solvers
  obtain ⟨ref, s, N, -, hc, hN, h⟩ := C165_errors (patch_mesh.element 0 (by decide)) square_tables h1 h2 (patch_mesh.measure 0 (by decide))
  have hN : N = 7 := hN
  refine ⟨lu, lu, ref, s, hc, fun dofs hl => ⟨_, _, h none dofs (by rw [hl, hN])⟩⟩

/-- The errors on a cell for the degrees of freedom of polynomials of degree `k`. -/
theorem errors_exact {n : Nat} {V : Nat → ℝ × ℝ} {len : Nat → ℝ} {dir : Nat → Bool} {nrm : Nat → ℝ × ℝ} {poly : VemPolygon ℝ}
    (hE : IsElement poly n V len dir nrm) (hT : IsTables k triangle edge ts ws w) (hlu : SolvesRegular lu) (hllt : SolvesPosDef llt) (hpos : 0 < poly.measure)
    {q : Nat → MvPolynomial (Fin 2) ℝ} (hq : ∀ h < 2, (q h).totalDegree ≤ k) {e : ElasticExact ℝ} (he : ∀ p, ∀ d < 2, e.value p d = eval ![p.1, p.2] (q d))
    (hd : ∀ p, ∀ d < 2, e.derivative p (3 * d) = eval ![p.1, p.2] (pderiv 0 (q d)) ∧ e.derivative p (3 * d + 1) = eval ![p.1, p.2] (pderiv 1 (q d))) :
    ∃ ref s, vemRef2D triangle edge k = .ok ref ∧ vemCreate2D lu llt ref poly = .ok s ∧ ∀ dofs : List ℝ, dofs.length = 2 * (n + n * (k - 1) + k * (k - 1) / 2) →
      (∀ h < 2, IsDofVector k poly n V dir ts (fun p => eval ![p.1, p.2] (q h)) (compOf (n + n * (k - 1) + k * (k - 1) / 2) (fun i => dofs.getD i 0) h)) →
      elasticErrors (vemCell2D ref poly s) (some e) dofs = .ok ⟨some 0, ∫ p in unionOf poly.tris, (eval ![p.1, p.2] (q 0) ^ 2 + eval ![p.1, p.2] (q 1) ^ 2), some 0,
        ∫ p in unionOf poly.tris, (eval ![p.1, p.2] (pderiv 0 (q 0)) ^ 2 + eval ![p.1, p.2] (pderiv 1 (q 0)) ^ 2 + eval ![p.1, p.2] (pderiv 0 (q 1)) ^ 2
          + eval ![p.1, p.2] (pderiv 1 (q 1)) ^ 2)⟩ := by
  obtain ⟨ref, s, hr, hc, h⟩ := errors_vem hE hT hlu hllt hpos
  obtain ⟨r3, s3, hr3, hc3, -, -, -, -, hexact⟩ := C71_derivatives hE hT hlu hllt
  obtain ⟨r4, s4, hr4, hc4, -, -, hval⟩ := C52_pi0k hE hT hlu hllt
  obtain ⟨r5, s5, hr5, hc5, hsp⟩ := vemCreate_ok hE hT hlu hllt
  obtain rfl : r3 = ref := Except.ok.inj (hr3.symm.trans hr)
  obtain rfl : s3 = s := Except.ok.inj (hc3.symm.trans hc)
  obtain rfl : r4 = r3 := Except.ok.inj (hr4.symm.trans hr)
  obtain rfl : s4 = s3 := Except.ok.inj (hc4.symm.trans hc)
  obtain rfl : r5 = r4 := Except.ok.inj (hr5.symm.trans hr)
  obtain rfl : s5 = s4 := Except.ok.inj (hc5.symm.trans hc)
  refine ⟨r5, s5, hr, hc, fun dofs hl hy => ?_⟩
  rw [h (some e) dofs hl]
  set N := n + n * (k - 1) + k * (k - 1) / 2 with hN
  have r2 : ∀ f : Nat → ℝ, ∑ d ∈ Finset.range 2, f d = f 0 + f 1 := fun f => by simp only [Finset.sum_range_succ, Finset.sum_range_zero, zero_add]
  have hv : ∀ p, ∀ d < 2, polyOf k poly.centroid poly.diameter (apply s5.pi0k (compOf N (fun i => dofs.getD i 0) d)) p = eval ![p.1, p.2] (q d) := fun p d hd' =>
    hval _ (hq d hd') _ (hy d hd') p
  have hx : ∀ p, ∀ d < 2, projGrad k poly s5 (compOf N fun i => dofs.getD i 0) p d 0 = eval ![p.1, p.2] (pderiv 0 (q d)) := fun p d hd' =>
    (hexact (q d) (hq d hd') _ (hy d hd') p).1
  have hy' : ∀ p, ∀ d < 2, projGrad k poly s5 (compOf N fun i => dofs.getD i 0) p d 1 = eval ![p.1, p.2] (pderiv 1 (q d)) := fun p d hd' =>
    (hexact (q d) (hq d hd') _ (hy d hd') p).2
  have n0 : (0 : Nat) < 2 := by norm_num
  have n1 : (1 : Nat) < 2 := by norm_num
  have hz0 := fun p => (hd p 0 n0).1
  have hz1 := fun p => (hd p 0 n0).2
  have hz2 := fun p => (hd p 1 n1).1
  have hz3 := fun p => (hd p 1 n1).2
  simp only [mul_zero, zero_add, mul_one] at hz0 hz1 hz2 hz3
  have hk := hT.low
  have d1 : ∀ i a, a < 2 → (pderiv i (q a)).totalDegree ≤ k := fun i a ha => (totalDegree_pderiv i (q a)).trans ((Nat.sub_le _ _).trans (hq a ha))
  have dsq : ∀ p : MvPolynomial (Fin 2) ℝ, p.totalDegree ≤ k → (p ^ 2).totalDegree ≤ 2 * k := fun p hp => (totalDegree_pow _ _).trans (by omega)
  have dadd : ∀ p p' : MvPolynomial (Fin 2) ℝ, p.totalDegree ≤ 2 * k → p'.totalDegree ≤ 2 * k → (p + p').totalDegree ≤ 2 * k := fun p p' hp hp' =>
    (totalDegree_add _ _).trans (max_le hp hp')
  simp only [Option.map_some, r2, hv _ 0 n0, hv _ 1 n1, hx _ 0 n0, hx _ 1 n1, hy' _ 0 n0, hy' _ 1 n1, he _ 0 n0, he _ 1 n1, mul_zero, zero_add, mul_one, add_zero, Nat.reduceAdd, hz0, hz1, hz2, hz3,
    sub_self, ne_eq, OfNat.ofNat_ne_zero, not_false_eq_true, zero_pow, quadSum_zero]
  congr 2
  · refine Eq.trans ?_ ((hsp.rules.integral (q 0 ^ 2 + q 1 ^ 2) (dadd _ _ (dsq _ (hq 0 n0)) (dsq _ (hq 1 n1)))).trans ?_)
    · show _ = quadSum _ _ (ev2 _)
      congr 1
      funext p
      simp [ev2]
    · simp only [ev2, map_add, map_pow]
  · refine Eq.trans ?_ ((hsp.rules.integral (pderiv 0 (q 0) ^ 2 + pderiv 1 (q 0) ^ 2 + pderiv 0 (q 1) ^ 2 + pderiv 1 (q 1) ^ 2)
      (dadd _ _ (dadd _ _ (dadd _ _ (dsq _ (d1 0 0 n0)) (dsq _ (d1 1 0 n0))) (dsq _ (d1 0 1 n1))) (dsq _ (d1 1 1 n1)))).trans ?_)
    · show _ = quadSum _ _ (ev2 _)
      congr 1
      funext p
      simp only [ev2, map_add, map_pow]
      ring
    · simp only [ev2, map_add, map_pow]

/-- C165, the whole mesh: let the vectors of the solution hold the degrees of freedom of a displacement `q` whose components are polynomials of degree at most `k`, and let `q` be the exact solution.
Then the L2 and H1 errors are zero, on every cell and in total, the norms are the L2 and H1 norms of `q`, the numeric displacement of each vertex of a cell is the exact one, and the norm of
the residual is zero exactly if `q` solves the system. -/
theorem C165_exact (hM : IsPlaneMesh k mesh poly n len dir nrm) (hT : IsTables k triangle edge ts ws w) (hlu : SolvesRegular lu) (hllt : SolvesPosDef llt)
    (hr : vemRef2D triangle edge k = .ok ref) (hi : vemMeshInfo ref mesh.topo boundary = .ok info) (hdata : createDOFs 2 info mesh.topo = .ok data)
    (hov : 2 * totalRequested info 2 < 2 ^ 32) (hsmall : ∀ c < mesh.num2D, 2 * (n c + n c * (k - 1) + k * (k - 1) / 2) < 2 ^ 32)
    {q : Nat → MvPolynomial (Fin 2) ℝ} (hq : ∀ h < 2, (q h).totalDegree ≤ k) {e : ElasticExact ℝ} (he : ∀ p, ∀ d < 2, e.value p d = eval ![p.1, p.2] (q d))
    (hd : ∀ p, ∀ d < 2, e.derivative p (3 * d) = eval ![p.1, p.2] (pderiv 0 (q d)) ∧ e.derivative p (3 * d + 1) = eval ![p.1, p.2] (pderiv 1 (q d)))
    (P : ElasticProblem ℝ) {v₀ v₁ : OnDofs ℝ} (hv0 : evaluateOnDofs data k (vemSpaces lu llt ref poly) mesh (fun p => eval ![p.1, p.2] (q 0)) = .ok v₀)
    (hv1 : evaluateOnDofs data k (vemSpaces lu llt ref poly) mesh (fun p => eval ![p.1, p.2] (q 1)) = .ok v₁) (hP : P.dirichlet = v₀.strong ++ v₁.strong) (diameters : Nat → ℝ) :
    ∃ count R, countDofs [data.counters, data.counters] = .ok count ∧
      elasticPost Real.sqrt data count diameters (vemSpaces lu llt ref poly) mesh (some e) P (v₀.free ++ v₁.free) = .ok R ∧
      R.errorL2 = some 0 ∧ R.errorH1 = some 0 ∧ (∀ E ∈ R.cells, E.errorL2 = some 0 ∧ E.errorH1 = some 0) ∧ R.cells.length = mesh.num2D ∧
      R.normL2 = Real.sqrt ((List.range mesh.num2D).map fun c => ∫ p in unionOf (poly c).tris, (eval ![p.1, p.2] (q 0) ^ 2 + eval ![p.1, p.2] (q 1) ^ 2)).sum ∧
      R.normH1 = Real.sqrt ((List.range mesh.num2D).map fun c => ∫ p in unionOf (poly c).tris, (eval ![p.1, p.2] (pderiv 0 (q 0)) ^ 2 + eval ![p.1, p.2] (pderiv 1 (q 0)) ^ 2
        + eval ![p.1, p.2] (pderiv 0 (q 1)) ^ 2 + eval ![p.1, p.2] (pderiv 1 (q 1)) ^ 2)).sum ∧
      (∀ c < mesh.num2D, ∀ p ∈ mesh.topo.cell2DVertices c, ∀ h < 2, ∃ l, R.numeric[h]? = some l ∧ l.length = mesh.num0D ∧ l[p]? = some (some (eval ![(mesh.coords p).1, (mesh.coords p).2] (q h)))) ∧
      (R.residual = 0 ↔ ∀ i < 2 * data.counters.dofs, ∑ j ∈ Finset.range (2 * data.counters.dofs), entry P.globalMatrix i j * (v₀.free ++ v₁.free).getD j 0 = ventry P.rightHandSide i) ∧
      (∀ c < mesh.num2D, diameters c ≤ R.meshSize) ∧ (R.meshSize = 0 ∨ ∃ c < mesh.num2D, R.meshSize = diameters c) := by
  have hov' : totalRequested info 2 < 2 ^ 32 := by omega
  have H := handler_plane hT hr hi hdata hov'
  have HF : FHandler (numOf k) mesh.topo info data := field_handler (numOf_ref hT hr mesh.topo boundary ▸ hi) hdata hov'
  obtain ⟨-, -, -, -, s2⟩ := C03_counters 2 info mesh.topo data hdata hov'
  have s2 : data.counters.dofs + data.counters.strongs = totalRequested info 2 := s2
  have HP : Pair (numOf k) (numOf k) mesh.topo info info data data := ⟨HF, HF, by omega, by omega⟩
  have hlen : ∀ c < mesh.num2D, (vemList k mesh.topo c).length = n c + n c * (k - 1) + k * (k - 1) / 2 := fun c hc =>
    vemList_length k mesh.topo c (n c) (hM.vertices c hc) (hM.edges c hc)
  obtain ⟨M₀, hM01, hM02⟩ := moments_ok hM hT hlu hllt hr fun p => eval ![p.1, p.2] (q 0)
  obtain ⟨M₁, hM11, hM12⟩ := moments_ok hM hT hlu hllt hr fun p => eval ![p.1, p.2] (q 1)
  obtain ⟨v', hv', hv0f, hv0s, hv0v⟩ := evaluate_ok hM hT hlu hllt hr H _ M₀ hM01
  obtain rfl : v' = v₀ := Except.ok.inj (hv'.symm.trans hv0)
  obtain ⟨v'', hv'', hv1f, hv1s, hv1v⟩ := evaluate_ok hM hT hlu hllt hr H _ M₁ hM11
  obtain rfl : v'' = v₁ := Except.ok.inj (hv''.symm.trans hv1)
  obtain ⟨bb, hcount⟩ := HP.count
  have hfl : (v'.free ++ v''.free).length = data.counters.dofs + data.counters.dofs := by rw [List.length_append]; omega
  have hsl : (v'.strong ++ v''.strong).length = data.counters.strongs + data.counters.strongs := by rw [List.length_append]; omega
  -- the cells
  set I₀ : Nat → ℝ := fun c => ∫ p in unionOf (poly c).tris, (eval ![p.1, p.2] (q 0) ^ 2 + eval ![p.1, p.2] (q 1) ^ 2) with hI₀
  set I₁ : Nat → ℝ := fun c => ∫ p in unionOf (poly c).tris, (eval ![p.1, p.2] (pderiv 0 (q 0)) ^ 2 + eval ![p.1, p.2] (pderiv 1 (q 0)) ^ 2
        + eval ![p.1, p.2] (pderiv 0 (q 1)) ^ 2 + eval ![p.1, p.2] (pderiv 1 (q 1)) ^ 2) with hI₁
  have hcell : ∀ c ∈ List.range mesh.num2D, elasticPostCell data ⟨bb, data.counters.dofs + data.counters.dofs, data.counters.strongs + data.counters.strongs, [0, data.counters.dofs],
      [0, data.counters.strongs]⟩ (vemSpaces lu llt ref poly) (some e) (v'.free ++ v''.free) P.dirichlet c = .ok ⟨some 0, I₀ c, some 0, I₁ c⟩ := by
    intro c hc
    have hc := List.mem_range.1 hc
    obtain ⟨r', s, hr', hs, hrun⟩ := errors_exact (hM.element c hc) hT hlu hllt (hM.measure c hc) hq he hd
    obtain rfl : r' = ref := Except.ok.inj (hr'.symm.trans hr)
    have hsp : vemSpaces lu llt r' poly c = .ok (vemCell2D r' (poly c) s) := by rw [vemSpaces, hs, except_ok_bind]
    have hlc := HP.local_count hc (by rw [fieldList_vem, hlen c hc]; have := hsmall c hc; omega)
    obtain ⟨y, hy, hyl, hya, hyb⟩ := HP.local_values hc hfl hsl
    rw [elasticPostCell, hsp, except_ok_bind, hlc, except_ok_bind]
    dsimp only
    rw [hP, hy, except_ok_bind]
    rw [fieldList_vem] at hyl hya hyb
    refine hrun y (by rw [hyl, hlen c hc]; omega) fun h hh => ?_
    rw [← hlen c hc]
    obtain rfl | rfl : h = 0 ∨ h = 1 := by omega
    · refine local_dofVector hM hT.nodes hc (hM02 (q 0) (by have := hq 0 (by norm_num); omega) (fun _ => rfl) c hc) fun j r hj => ?_
      rw [compOf, zero_mul, zero_add, hya j r hj, ← hv0v c hc r (List.mem_of_getElem? hj)]
      obtain ⟨x, hx, ht⟩ := H.lookup_list hc (List.mem_of_getElem? hj)
      obtain ⟨t, g⟩ := x
      cases t with
      | dof =>
        have := H.free r g hx
        simp only [valueOf, hx]
        rw [List.getD_eq_getElem?_getD, List.getElem?_append_left (by omega), ← List.getD_eq_getElem?_getD]
      | strong =>
        have := H.strong r g hx
        simp only [valueOf, hx]
        rw [List.getD_eq_getElem?_getD, List.getElem?_append_left (by omega), ← List.getD_eq_getElem?_getD]
      | _ => exact absurd rfl ht
    · refine local_dofVector hM hT.nodes hc (hM12 (q 1) (by have := hq 1 (by norm_num); omega) (fun _ => rfl) c hc) fun j r hj => ?_
      rw [compOf, one_mul, hyb j r hj, ← hv1v c hc r (List.mem_of_getElem? hj), ← hv0f, ← hv0s, List.drop_left, List.drop_left]
  -- the vertices
  have hnum0 : ∀ p ∈ List.range mesh.num0D, elasticNumeric data ⟨bb, data.counters.dofs + data.counters.dofs, data.counters.strongs + data.counters.strongs, [0, data.counters.dofs],
      [0, data.counters.strongs]⟩ (v'.free ++ v''.free) P.dirichlet 0 p = .ok (some (valueOf data v'.free v'.strong ⟨0, p, 0⟩)) := fun p hp => by
    rw [hP]
    exact (elasticNumeric_ok H (by omega) (by omega) hv0f hv1f hv0s hv1s (List.mem_range.1 hp)).1
  have hnum1 : ∀ p ∈ List.range mesh.num0D, elasticNumeric data ⟨bb, data.counters.dofs + data.counters.dofs, data.counters.strongs + data.counters.strongs, [0, data.counters.dofs],
      [0, data.counters.strongs]⟩ (v'.free ++ v''.free) P.dirichlet 1 p = .ok (some (valueOf data v''.free v''.strong ⟨0, p, 0⟩)) := fun p hp => by
    rw [hP]
    exact (elasticNumeric_ok H (by omega) (by omega) hv0f hv1f hv0s hv1s (List.mem_range.1 hp)).2
  have m0 := mapM_ok _ _ _ hnum0
  have m1 := mapM_ok _ _ _ hnum1
  have mc := mapM_ok _ _ _ hcell
  have hp : ∀ {α : Type} (a : α), (pure a : Except Fault α) = .ok a := fun _ => rfl
  refine ⟨_, ?R, hcount, ?run, ?rest⟩
  case run =>
    unfold elasticPost
    have r2 : List.range 2 = [0, 1] := rfl
    simp only [r2, List.mapM_cons, List.mapM_nil, m0, m1, mc, except_ok_bind, hp]
    rfl
  dsimp only
  simp only [List.map_map, Function.comp_def]
  have hz : nanSum ((List.range mesh.num2D).map fun _ => some (0 : ℝ)) = some 0 := by
    have h := nanSum_some ((List.range mesh.num2D).map fun _ => (0 : ℝ))
    rw [List.map_map] at h
    refine h.trans ?_
    simp
  have hmax : ∀ (l : List Nat) (m : ℝ), m ≤ l.foldl (fun m c => if m < diameters c then diameters c else m) m ∧
      (∀ c ∈ l, diameters c ≤ l.foldl (fun m c => if m < diameters c then diameters c else m) m) ∧
      (l.foldl (fun m c => if m < diameters c then diameters c else m) m = m ∨ ∃ c ∈ l, l.foldl (fun m c => if m < diameters c then diameters c else m) m = diameters c) := by
    intro l
    induction l with
    | nil => simp
    | cons a l ih =>
      intro m
      rw [List.foldl_cons]
      obtain ⟨h1, h2, h3⟩ := ih (if m < diameters a then diameters a else m)
      have ha : m ≤ (if m < diameters a then diameters a else m) ∧ diameters a ≤ (if m < diameters a then diameters a else m) := by
        split_ifs with h
        · exact ⟨h.le, le_rfl⟩
        · exact ⟨le_rfl, not_lt.1 h⟩
      refine ⟨ha.1.trans h1, fun c hc => ?_, ?_⟩
      · rcases List.mem_cons.1 hc with rfl | hc
        · exact ha.2.trans h1
        · exact h2 c hc
      · rcases h3 with h3 | ⟨c, hc, h3⟩
        · rw [h3]
          split_ifs
          · exact Or.inr ⟨a, List.mem_cons_self, rfl⟩
          · exact Or.inl rfl
        · exact Or.inr ⟨c, List.mem_cons_of_mem _ hc, h3⟩
  obtain ⟨-, hm2, hm3⟩ := hmax (List.range mesh.num2D) 0
  refine ⟨by rw [hz]; simp, by rw [hz]; simp, fun E hE => ?_, by simp, trivial, trivial, fun c hc p hpc h hh => ?_, ?_, fun c hc => hm2 c (List.mem_range.2 hc), ?_⟩
  · obtain ⟨c, -, rfl⟩ := List.mem_map.1 hE
    exact ⟨rfl, rfl⟩
  · have hp0 : p < mesh.num0D := H.verts c hc p hpc
    have hmem : (⟨0, p, 0⟩ : GDOF) ∈ vemList k mesh.topo c := by
      obtain ⟨j, hj, hjp⟩ := List.mem_iff_getElem.1 hpc
      have := vemList_vertex (k := k) (hM.vertices c hc) (e := j) (by rw [← hM.vertices c hc]; exact hj)
      rw [List.getD_eq_getElem?_getD, List.getElem?_eq_getElem hj, hjp] at this
      exact List.mem_of_getElem? this
    obtain rfl | rfl : h = 0 ∨ h = 1 := by omega
    · refine ⟨_, rfl, by simp, ?_⟩
      rw [List.getElem?_map, List.getElem?_range hp0, Option.map_some, hv0v c hc _ hmem]
      rfl
    · refine ⟨_, rfl, by simp, ?_⟩
      rw [List.getElem?_map, List.getElem?_range hp0, Option.map_some, hv1v c hc _ hmem]
      rfl
  · have hres : ∀ i, elasticResidual P (v'.free ++ v''.free) i = 0 ↔
        ∑ j ∈ Finset.range (2 * data.counters.dofs), entry P.globalMatrix i j * (v'.free ++ v''.free).getD j 0 = ventry P.rightHandSide i := fun i => by
      rw [elasticResidual_eq, hfl, sub_eq_zero, two_mul]
    simp only [← hres, ← two_mul]
    split_ifs with h0
    · rw [list_sum_range, Real.sqrt_eq_zero (Finset.sum_nonneg fun i _ => mul_self_nonneg _), Finset.sum_eq_zero_iff_of_nonneg fun i _ => mul_self_nonneg _]
      simp only [Finset.mem_range, mul_self_eq_zero]
    · exact ⟨fun _ i hi => absurd hi (by omega), fun _ => rfl⟩
  · rcases hm3 with h | ⟨c, hc, h⟩
    · exact Or.inl h
    · exact Or.inr ⟨c, List.mem_range.1 hc, h⟩

-- C165: on the mesh of two triangles of C163, order 2, the displacement (x y, x² - y)
example : ∃ lu llt : Solver ℝ, ∃ ref info data v₀ v₁ count R, ∃ q : Nat → MvPolynomial (Fin 2) ℝ, q 0 = X 0 * X 1 ∧ q 1 = X 0 ^ 2 - X 1 ∧
    createDOFs 2 info patchMesh.topo = .ok data ∧ countDofs [data.counters, data.counters] = .ok count ∧
    evaluateOnDofs data 2 (vemSpaces lu llt ref patchPoly) patchMesh (fun p => eval ![p.1, p.2] (q 0)) = .ok v₀ ∧
    evaluateOnDofs data 2 (vemSpaces lu llt ref patchPoly) patchMesh (fun p => eval ![p.1, p.2] (q 1)) = .ok v₁ ∧
    elasticPost Real.sqrt data count (fun _ => 3 / 2) (vemSpaces lu llt ref patchPoly) patchMesh
      (some ⟨fun p d => eval ![p.1, p.2] (q d), fun p j => eval ![p.1, p.2] (pderiv (if j % 3 = 0 then 0 else 1) (q (j / 3)))⟩) ⟨[], [], [], v₀.strong ++ v₁.strong⟩ (v₀.free ++ v₁.free) = .ok R ∧
    R.errorL2 = some 0 ∧ R.errorH1 = some 0 ∧ R.cells.length = 2 := by
  obtain ⟨lu, h1, h2⟩ := exists_solvers
  obtain ⟨ref, info, data, hr, hi, hd, ho, -, hc1, hc2⟩ := patch_dofs
  have H := handler_plane square_tables hr hi hd ho
  set q : Nat → MvPolynomial (Fin 2) ℝ := fun h => if h = 0 then X 0 * X 1 else X 0 ^ 2 - X 1 with hq
  have hdeg : ∀ h < 2, (q h).totalDegree ≤ 2 := by
    intro h _
    simp only [hq]
    split_ifs
    · exact (totalDegree_mul _ _).trans (by simp)
    · refine (totalDegree_sub _ _).trans (max_le ?_ (by simp))
      exact (totalDegree_pow _ _).trans (by simp)
  obtain ⟨M₀, hM0, -⟩ := moments_ok patch_mesh square_tables h1 h2 hr fun p => eval ![p.1, p.2] (q 0)
  obtain ⟨M₁, hM1, -⟩ := moments_ok patch_mesh square_tables h1 h2 hr fun p => eval ![p.1, p.2] (q 1)
  obtain ⟨v₀, hv0, -⟩ := evaluate_ok patch_mesh square_tables h1 h2 hr H _ M₀ hM0
  obtain ⟨v₁, hv1, -⟩ := evaluate_ok patch_mesh square_tables h1 h2 hr H _ M₁ hM1
  have hs : totalRequested info 2 < 2 ^ 31 := by
    obtain ⟨-, -, -, -, s2⟩ := C03_counters 2 info patchMesh.topo data hd ho
    have s2 : data.counters.dofs + data.counters.strongs = totalRequested info 2 := s2
    omega
  obtain ⟨count, R, hc, hR, e1, e2, -, e3, -⟩ := C165_exact (e := ⟨fun p d => eval ![p.1, p.2] (q d), fun p j => eval ![p.1, p.2] (pderiv (if j % 3 = 0 then 0 else 1) (q (j / 3)))⟩)
    patch_mesh square_tables h1 h2 hr hi hd (by omega) (fun c hc => by norm_num) hdeg (fun _ _ _ => rfl)
    (fun p d hd => by
      obtain rfl | rfl : d = 0 ∨ d = 1 := by omega
      · exact ⟨rfl, rfl⟩
      · exact ⟨rfl, rfl⟩) ⟨[], [], [], v₀.strong ++ v₁.strong⟩ hv0 hv1 rfl fun _ => 3 / 2
  exact ⟨lu, lu, ref, info, data, v₀, v₁, count, R, q, rfl, rfl, hd, hc, hv0, hv1, hR, e1, e2, e3⟩

end PolyDiM
