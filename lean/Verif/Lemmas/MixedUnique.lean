import Verif.Lemmas.MixedPatch
import Verif.Lemmas.PlaneEnergy

/-!
# Lemmas: the mixed system determines its solution
-/

namespace PolyDiM

open Spec MvPolynomial MeasureTheory

theorem quadSum_pos {P : Type} (points : List P) (weights : List ℝ) (hw : ∀ w ∈ weights, 0 ≤ w) {f : P → ℝ} (hf : ∀ p ∈ points, 0 ≤ f p) : 0 ≤ quadSum points weights f := by
  induction points generalizing weights with
  | nil => simp [quadSum]
  | cons p ps ih =>
    cases weights with
    | nil => simp [quadSum]
    | cons w ws =>
      have := ih ws (fun x hx => hw x (by simp [hx])) fun x hx => hf x (by simp [hx])
      simp only [quadSum, List.zipWith_cons_cons, List.sum_cons] at this ⊢
      exact add_nonneg (mul_nonneg (hw w (by simp)) (hf p (by simp))) this

theorem quadSum_vanish {P : Type} (points : List P) (weights : List ℝ) (hw : ∀ w ∈ weights, 0 ≤ w) {f g : P → ℝ} (hf : ∀ p ∈ points, 0 ≤ f p)
    (hfg : ∀ p ∈ points, f p = 0 → g p = 0) (h0 : quadSum points weights f = 0) : quadSum points weights g = 0 := by
  induction points generalizing weights with
  | nil => simp [quadSum]
  | cons p ps ih =>
    cases weights with
    | nil => simp [quadSum]
    | cons w ws =>
      have h1 := quadSum_pos ps ws (fun x hx => hw x (by simp [hx])) (f := f) fun x hx => hf x (by simp [hx])
      have h2 := ih ws (fun x hx => hw x (by simp [hx])) (fun x hx => hf x (by simp [hx])) fun x hx => hfg x (by simp [hx])
      have h3 := mul_nonneg (hw w (by simp)) (hf p (by simp))
      simp only [quadSum, List.zipWith_cons_cons, List.sum_cons] at h0 h1 h2 ⊢
      rw [h2 (by linarith), add_zero]
      have h4 : w * f p = 0 := by linarith
      rcases mul_eq_zero.1 h4 with h | h
      · rw [h, zero_mul]
      · rw [hfg p (by simp) h, mul_zero]

section
variable {k n : Nat} {V : Nat → ℝ × ℝ} {len : Nat → ℝ} {dir : Nat → Bool} {nrm : Nat → ℝ × ℝ} {poly : VemPolygon ℝ} {s : MccSpace2D ℝ}
  {triangle : Nat → Rule (ℝ × ℝ) ℝ} {edge : Nat → Rule ℝ ℝ} {ts ws : List ℝ} {svd : DMat ℝ → DMat ℝ} {sqrt : ℝ → ℝ} {llt : Solver ℝ}

/-- The energy of a cell. -/
theorem cell_energy (hE : IsElement poly n V len dir nrm) (hT : IsMixedTables k triangle edge ts ws) (hsvd : ∀ A, RightSingular A (svd A))
    (hsq : ∀ x, 0 ≤ x → sqrt x * sqrt x = x) (hllt : SolvesPosDef llt) (hm : 0 < poly.measure) {test : MixedTest ℝ} {p : MccPressure2D ℝ} {S A : DMat ℝ} {b : List ℝ} {kmax : ℝ}
    (hcr : mccCreate2D svd sqrt llt (mccRef2D triangle edge k) poly = .ok s)
    (hs : MSpaceOk k n V len dir nrm ts ws poly s) (hC : MCell k n (mccRef2D triangle edge k) poly test s p S A b kmax)
    (hν : IsDefiniteTensor test) (hβ : ∀ x, ∀ a < 2, test.advection x a = 0) (hγ : ∀ x, 0 ≤ test.reaction x) (z : Nat → ℝ) :
    0 ≤ ∑ j ∈ Finset.range (n * (k + 1) + k * (k + 2)), z j * apply A z j
      + ∑ j ∈ Finset.range ((k + 1) * (k + 2) / 2), z (n * (k + 1) + k * (k + 2) + j) * apply A z (n * (k + 1) + k * (k + 2) + j) ∧
    (∑ j ∈ Finset.range (n * (k + 1) + k * (k + 2)), z j * apply A z j
      + ∑ j ∈ Finset.range ((k + 1) * (k + 2) / 2), z (n * (k + 1) + k * (k + 2) + j) * apply A z (n * (k + 1) + k * (k + 2) + j) = 0 →
      (∀ j < n * (k + 1) + k * (k + 2), z j = 0) ∧ ((∀ x, 0 < test.reaction x) → ∀ j < (k + 1) * (k + 2) / 2, z (n * (k + 1) + k * (k + 2) + j) = 0)) := by
  obtain ⟨s', S', h1, hS', -, -, -, hpsd⟩ := C100_form hE hT hsvd hsq hllt hm
  obtain rfl : s = s' := Except.ok.inj (hcr.symm.trans h1)
  obtain rfl : S = S' := Except.ok.inj (hC.stab.symm.trans hS')
  obtain ⟨s', S', h1, hS', hdef⟩ := C100_definite hE hT hsvd hsq hllt hm
  obtain rfl : s = s' := Except.ok.inj (hcr.symm.trans h1)
  obtain rfl : S = S' := Except.ok.inj (hC.stab.symm.trans hS')
  set G := gsum k poly.centroid poly.diameter s.init.tPlus (Spec.apply s.pi0k z) with hG
  set ph : ℝ × ℝ → ℝ := fun x => polyOf k poly.centroid poly.diameter (fun j => z (n * (k + 1) + k * (k + 2) + j)) x with hph
  set F : ℝ × ℝ → ℝ := fun x => ∑ a ∈ Finset.range 2, ∑ b ∈ Finset.range 2, test.inverseDiffusion x (a + 3 * b) *
    component (ev2 (G 0) x, ev2 (G 1) x) b * component (ev2 (G 0) x, ev2 (G 1) x) a with hF
  have hFn : ∀ x, 0 ≤ F x := by
    intro x
    by_cases h0 : ((ev2 (G 0) x, ev2 (G 1) x) : ℝ × ℝ) = 0
    · rw [hF]
      dsimp only
      rw [h0]
      simp [component]
    · exact (hν x _ h0).le
  have hgn : ∀ x, 0 ≤ test.reaction x * (ph x * ph x) := fun x => mul_nonneg (hγ x) (mul_self_nonneg _)
  have hform : quadSum s.internal.points s.internal.weights (fun x => mixedIntegrand test x
        (splitField k poly.centroid poly.diameter s.init.tPlus.ent (apply s.pi0k z) x) (splitField k poly.centroid poly.diameter s.init.tPlus.ent (apply s.pi0k z) x)
        (polyOf k poly.centroid poly.diameter (apply s.V z) x) (polyOf k poly.centroid poly.diameter (apply s.V z) x)
        (polyOf k poly.centroid poly.diameter (fun j => z (n * (k + 1) + k * (k + 2) + j)) x)
        (polyOf k poly.centroid poly.diameter (fun j => z (n * (k + 1) + k * (k + 2) + j)) x))
      = quadSum s.internal.points s.internal.weights F + quadSum s.internal.points s.internal.weights (fun x => test.reaction x * (ph x * ph x)) := by
    rw [← quadSum_add]
    refine quadSum_congr _ _ fun x _ => ?_
    rw [split_ev2, mixedIntegrand]
    simp only [hF, hph, ← hG]
    rw [Finset.sum_eq_zero (s := Finset.range 2) (f := fun a => test.advection x a * component (ev2 (G 0) x, ev2 (G 1) x) a) fun a ha => by
      rw [hβ x a (Finset.mem_range.1 ha), zero_mul]]
    ring
  have hF0 := quadSum_pos s.internal.points s.internal.weights hs.rules.wpos (fun x _ => hFn x)
  have hg0 := quadSum_pos s.internal.points s.internal.weights hs.rules.wpos (fun x _ => hgn x)
  have hk : 0 < kmax := by
    obtain ⟨x, hx⟩ := List.exists_mem_of_length_pos (mquad_pos hE hs)
    have h1 := hν x (1, 0) (by simp)
    simp [component] at h1
    exact lt_of_lt_of_le (abs_pos.2 h1.ne') (hC.great.2 ⟨x, hx, 0, by norm_num, rfl⟩)
  have hst := mul_nonneg hk.le (hpsd z)
  have hfull := hC.form z z fun j => z (n * (k + 1) + k * (k + 2) + j)
  rw [hform] at hfull
  rw [hfull]
  refine ⟨by positivity, fun h0 => ⟨fun j hj => ?_, fun hg j hj => ?_⟩⟩
  · by_contra hne
    have := hdef z kmax hk ⟨j, hj, hne⟩
    have hI : (∫ p in unionOf poly.tris, dot2 (splitField k poly.centroid poly.diameter s.init.tPlus.ent (apply s.pi0k z) p)
        (splitField k poly.centroid poly.diameter s.init.tPlus.ent (apply s.pi0k z) p)) = ∑ d : Fin 2, quadLin s.internal.points s.internal.weights (G d * G d) := by
      rw [← int_dot hs (gsum_degree hs.init.tk _) (gsum_degree hs.init.tk _)]
      congr 1
      funext p
      rw [split_ev2]
    have hzero : ∀ x, F x = 0 → ∀ d : Fin 2, ev2 (G d) x = 0 := by
      intro x hx d
      by_contra hd
      refine (hν x (ev2 (G 0) x, ev2 (G 1) x) fun h => hd ?_).ne' hx
      rw [Prod.mk_eq_zero] at h
      fin_cases d
      · exact h.1
      · exact h.2
    rw [hI, Finset.sum_eq_zero (fun d _ => ?_)] at this
    · linarith
    · refine quadSum_vanish _ _ hs.rules.wpos (fun x _ => hFn x) (fun x _ hx => ?_) (by linarith : quadSum s.internal.points s.internal.weights F = 0)
      have := hzero x hx d
      simp only [ev2, map_mul] at this ⊢
      rw [this, zero_mul]
  · have hq : quadLin s.internal.points s.internal.weights (combo (k + 1) poly.centroid poly.diameter (tri (k + 1)) (fun j => z (n * (k + 1) + k * (k + 2) + j)) *
        combo (k + 1) poly.centroid poly.diameter (tri (k + 1)) (fun j => z (n * (k + 1) + k * (k + 2) + j))) = 0 := by
      refine quadSum_vanish _ _ hs.rules.wpos (fun x _ => hgn x) (fun x _ hx => ?_) (by linarith)
      have hx' := mul_self_eq_zero.1 ((mul_eq_zero.1 hx).resolve_left (hg x).ne')
      rw [hph] at hx'
      dsimp only at hx'
      have e := ev2_combo (k + 1) poly.centroid poly.diameter (show k ≤ k + 1 by omega) (fun j => z (n * (k + 1) + k * (k + 2) + j)) x
      rw [hx'] at e
      simp only [ev2, map_mul] at e ⊢
      rw [e, zero_mul]
    have hc := mquad_definite hE hs.rules _ ((combo_degree _ (show k ≤ k + 1 by omega)).trans (by omega)) hq
    have := combo_ext hE.diameter (show k ≤ k + 1 by omega) (c := poly.centroid) (x := fun j => z (n * (k + 1) + k * (k + 2) + j)) (y := fun _ => 0) (by
      rw [hc]
      simp [combo])
    exact this j (by rw [← tri_div]; exact hj)

/-- What a velocity tests of a pressure. -/
theorem cell_pressure (hs : MSpaceOk k n V len dir nrm ts ws poly s) {test : MixedTest ℝ} {p : MccPressure2D ℝ} {S A : DMat ℝ} {b : List ℝ} {kmax : ℝ}
    (hC : MCell k n (mccRef2D triangle edge k) poly test s p S A b kmax) (hβ : ∀ x, ∀ a < 2, test.advection x a = 0)
    {z : Nat → ℝ} (hz : ∀ j < n * (k + 1) + k * (k + 2), z j = 0) (v : Nat → ℝ) :
    ∑ j ∈ Finset.range (n * (k + 1) + k * (k + 2)), v j * apply A z j = -∑ i ∈ Finset.range (tri (k + 1)),
      (bsum k n V len dir ts ws v (basisPoly (k + 1) poly.centroid poly.diameter i) - if i = 0 then 0 else poly.measure * v (n * (k + 1) + (i - 1)))
        * z (n * (k + 1) + k * (k + 2) + i) := by
  have hfull := hC.form z v fun _ => 0
  simp only [zero_mul, Finset.sum_const_zero, add_zero] at hfull
  have e1 : ∀ i, apply s.pi0k z i = 0 := fun i => by
    rw [apply, hs.pSol.2.1, hs.bCols]
    exact Finset.sum_eq_zero fun j hj => by rw [hz j (Finset.mem_range.1 hj), mul_zero]
  have e2 : ∀ i, apply s.V z i = 0 := fun i => by
    rw [apply, hs.vSol.2.1, hs.wCols]
    exact Finset.sum_eq_zero fun j hj => by rw [hz j (Finset.mem_range.1 hj), mul_zero]
  have e3 : ∑ i ∈ Finset.range (n * (k + 1) + k * (k + 2)), v i * ∑ j ∈ Finset.range (n * (k + 1) + k * (k + 2)), S.ent i j * z j = 0 :=
    Finset.sum_eq_zero fun i _ => by
      rw [Finset.sum_eq_zero fun j hj => by rw [hz j (Finset.mem_range.1 hj), mul_zero], mul_zero]
  rw [hfull, e3, mul_zero, add_zero]
  have e4 : ∑ i ∈ Finset.range (tri (k + 1)), (bsum k n V len dir ts ws v (basisPoly (k + 1) poly.centroid poly.diameter i) - if i = 0 then 0 else poly.measure * v (n * (k + 1) + (i - 1)))
        * z (n * (k + 1) + k * (k + 2) + i)
      = quadLin s.internal.points s.internal.weights (combo (k + 1) poly.centroid poly.diameter (tri (k + 1)) (Spec.apply s.V v) *
          combo (k + 1) poly.centroid poly.diameter (tri (k + 1)) (fun j => z (n * (k + 1) + k * (k + 2) + j))) := by
    rw [quadLin_combo]
    refine Finset.sum_congr rfl fun i hi => ?_
    rw [mul_comm (combo _ _ _ _ _) (basisPoly _ _ _ _), quad_V hs v (Finset.mem_range.1 hi)]
  rw [e4, ← map_neg]
  refine quadSum_congr _ _ fun x _ => ?_
  have p1 : ∀ y : Nat → ℝ, polyOf k poly.centroid poly.diameter y x = ev2 (combo (k + 1) poly.centroid poly.diameter (tri (k + 1)) y) x :=
    fun y => (ev2_combo (k + 1) _ _ (show k ≤ k + 1 by omega) _ _).symm
  have hz0 : splitField k poly.centroid poly.diameter s.init.tPlus.ent (apply s.pi0k z) x = 0 := by
    rw [split_ev2, Prod.mk_eq_zero]
    constructor <;> simp [gsum, e1, ev2]
  rw [hz0, mixedIntegrand, p1, p1, p1, p1]
  have hv0 : ev2 (combo (k + 1) poly.centroid poly.diameter (tri (k + 1)) (apply s.V z)) x = 0 := by
    simp [combo, e2, ev2]
  have hr0 : ev2 (combo (k + 1) poly.centroid poly.diameter (tri (k + 1)) fun _ => (0 : ℝ)) x = 0 := by
    simp [combo, ev2]
  rw [hv0, hr0]
  simp only [Finset.sum_range_succ, Finset.sum_range_zero, hβ x 0 (by norm_num), hβ x 1 (by norm_num)]
  simp [component, ev2]
  ring

end

/-- A matrix with trivial kernel determines the solution of its linear systems. -/
theorem injective_solves {N : Nat} {E : Nat → Nat → ℝ}
    (h : ∀ x : List ℝ, x.length = N → (∀ i < N, ∑ j ∈ Finset.range N, E i j * x.getD j 0 = 0) → ∀ i < N, x.getD i 0 = 0) (b : Nat → ℝ) :
    ∃! x : List ℝ, x.length = N ∧ ∀ i < N, ∑ j ∈ Finset.range N, E i j * x.getD j 0 = b i := by
  have hfun : ∀ f : Fin N → ℝ, ∀ i : Fin N, ∑ j ∈ Finset.range N, E i j * (List.ofFn f).getD j 0 = ∑ j : Fin N, E i j * f j := by
    intro f i
    rw [← Fin.sum_univ_eq_sum_range (fun j => E i j * (List.ofFn f).getD j 0)]
    refine Finset.sum_congr rfl fun j _ => ?_
    congr 1
    simp [List.getD_eq_getElem?_getD]
  have hget : ∀ f : Fin N → ℝ, ∀ i : Fin N, (List.ofFn f).getD i 0 = f i := by
    intro f i
    simp [List.getD_eq_getElem?_getD]
  let M : Matrix (Fin N) (Fin N) ℝ := fun i j => E i j
  have hM : ∀ f i, M.mulVecLin f i = ∑ j : Fin N, E i j * f j := fun f i => rfl
  have hinj : Function.Injective M.mulVecLin := by
    rw [injective_iff_map_eq_zero]
    intro f hf
    have hz := h (List.ofFn f) List.length_ofFn (by
      intro i hi
      have := hfun f ⟨i, hi⟩
      rw [this, ← hM, hf]
      rfl)
    funext i
    rw [← hget f i, hz i i.2]
    rfl
  have hsurj := LinearMap.injective_iff_surjective.1 hinj
  obtain ⟨f, hf⟩ := hsurj fun i => b i
  refine ⟨List.ofFn f, ⟨List.length_ofFn, fun i hi => ?_⟩, fun y hy => ?_⟩
  · rw [hfun f ⟨i, hi⟩, ← hM, hf]
  · obtain ⟨hy1, hy2⟩ := hy
    subst hy1
    have : (fun i : Fin y.length => y[i]) = f := by
      refine hinj ?_
      rw [hf]
      funext i
      rw [hM, ← hfun, ← hy2 i i.2]
      refine Finset.sum_congr rfl fun j _ => ?_
      congr 2
      exact List.ofFn_getElem
    rw [← this]
    exact List.ofFn_getElem.symm

section
variable {k : Nat} {mesh : PlaneMesh ℝ} {poly : Nat → VemPolygon ℝ} {n : Nat → Nat} {len : Nat → Nat → ℝ} {dir : Nat → Nat → Bool} {nrm : Nat → Nat → ℝ × ℝ}
  {triangle : Nat → Rule (ℝ × ℝ) ℝ} {edge : Nat → Rule ℝ ℝ} {ts ws : List ℝ} {svd : DMat ℝ → DMat ℝ} {sqrt : ℝ → ℝ} {llt : Solver ℝ}
  {info0 info1 : MeshInfo} {d0 d1 : DOFsData} {count : CountData}

/-- Test functions with given values on the free degrees of freedom of the velocity. -/
theorem exists_test (H : Pair (mccVelocityNum k) (mccPressureNum k) mesh.topo info0 info1 d0 d1) (χ : GDOF → ℝ) :
    ∃ φ : Nat → ℝ, (∀ r i, lookup d0 r = some ⟨.dof, i⟩ → testValue d0 φ r = χ r) ∧ ∀ c j, preTest k mesh d0 d1 φ c j = 0 := by
  obtain ⟨free, -, h0, h1⟩ := exists_free H χ fun _ => 0
  refine ⟨fun i => free.getD i 0, fun r i hr => ?_, fun c j => ?_⟩
  · rw [testValue, hr]
    exact h0 r i hr
  · rw [preTest, onList]
    cases (fieldList (mccPressureNum k) mesh.topo c)[j]? with
    | none => rfl
    | some r =>
      rw [Option.elim_some, testValue]
      cases hl : lookup d1 r with
      | none => rfl
      | some x =>
        obtain ⟨t, i⟩ := x
        cases t with
        | dof =>
          have := h1 r i hl
          rw [List.getD_eq_getElem?_getD, List.getElem?_drop] at this
          dsimp only
          rw [List.getD_eq_getElem?_getD, this]
        | _ => rfl

theorem velTest_inner (hM : IsMixedMesh k mesh poly n len dir nrm) (hT : IsMixedTables k triangle edge ts ws) {c : Nat} (hc : c < mesh.num2D) (φ : Nat → ℝ) {i : Nat}
    (hi : i < k * (k + 2)) : velTest k mesh d0 φ c (n c * (k + 1) + i) = testValue d0 φ ⟨2, c, i⟩ := by
  rw [velTest, onList, (vel_list hM hT hc).2.2 i hi]
  rfl

/-- The assembled matrix has trivial kernel. -/
theorem mixed_kernel (hM : IsMixedMesh k mesh poly n len dir nrm) (hT : IsMixedTables k triangle edge ts ws) (hsvd : ∀ A, RightSingular A (svd A))
    (hsq : ∀ x, 0 ≤ x → sqrt x * sqrt x = x) (hllt : SolvesPosDef llt) (H : Pair (mccVelocityNum k) (mccPressureNum k) mesh.topo info0 info1 d0 d1)
    {test : MixedTest ℝ} {s : Nat → MccSpace2D ℝ} {p : Nat → MccPressure2D ℝ} {S A : Nat → DMat ℝ} {b : Nat → List ℝ} {kmax : Nat → ℝ} {P : MixedProblem ℝ}
    (hP : MSystem k mesh poly n len dir nrm triangle edge ts ws svd sqrt llt info0 d0 d1 test s p S A b kmax P)
    (hν : IsDefiniteTensor test) (hβ : ∀ x, ∀ a < 2, test.advection x a = 0) (hγ : ∀ x, 0 ≤ test.reaction x)
    (hc0 : ∀ c < mesh.num2D, ∀ b, (info0.bInfo 2)[c]? = some b → b.type ≠ .strong)
    (hcover : ∀ E < mesh.num1D, ∃ c < mesh.num2D, ∃ e < n c, cellEdge mesh c e = E)
    (hconn : (∀ x, 0 < test.reaction x) ∨ ∀ c < mesh.num2D, ∃ c', Relation.ReflTransGen (Adjacent info0 mesh n dir) c c' ∧ IsOutlet info0 mesh n c')
    {free : List ℝ} (hfl : free.length = d0.counters.dofs + d1.counters.dofs)
    (h0 : ∀ i < d0.counters.dofs + d1.counters.dofs, ∑ j ∈ Finset.range (d0.counters.dofs + d1.counters.dofs), entry P.globalMatrix i j * free.getD j 0 = 0) :
    ∀ i < d0.counters.dofs + d1.counters.dofs, free.getD i 0 = 0 := by
  classical
  set strong : List ℝ := List.replicate (d0.counters.strongs + d1.counters.strongs) 0 with hstr
  set Z : Nat → Nat → ℝ := fun c => Pair.pairValues (mccVelocityNum k) (mccPressureNum k) mesh.topo d0 d1 free strong c with hZ
  obtain ⟨t1, t2⟩ := mcc_counts k
  have hrow : ∀ φ : Nat → ℝ, ((List.range mesh.num2D).map fun c => ∑ j ∈ Finset.range (n c * (k + 1) + k * (k + 2)), velTest k mesh d0 φ c j * apply (A c) (Z c) j
        + ∑ j ∈ Finset.range ((k + 1) * (k + 2) / 2), preTest k mesh d0 d1 φ c j * apply (A c) (Z c) (n c * (k + 1) + k * (k + 2) + j)).sum = 0 := by
    intro φ
    rw [← hP.rows free strong hfl (by rw [hstr, List.length_replicate]) φ]
    refine Finset.sum_eq_zero fun i hi => ?_
    rw [hfl, h0 i (Finset.mem_range.1 hi), zero_add, Finset.sum_eq_zero fun j _ => ?_, mul_zero]
    rw [hstr, List.getD_eq_getElem?_getD, List.getElem?_replicate]
    split_ifs <;> simp
  have hv : ∀ c < mesh.num2D, ∀ j < n c * (k + 1) + k * (k + 2), velTest k mesh d0 (fun i => free.getD i 0) c j = Z c j := by
    intro c hc j hj
    rw [hZ]
    dsimp only
    rw [velTest, Pair.pairValues, (vel_list hM hT hc).1, if_pos hj, hstr, valueOf_zero]
  have hp : ∀ c < mesh.num2D, ∀ j, preTest k mesh d0 d1 (fun i => free.getD i 0) c j = Z c (n c * (k + 1) + k * (k + 2) + j) := by
    intro c hc j
    rw [hZ]
    dsimp only
    rw [preTest, Pair.pairValues, (vel_list hM hT hc).1, if_neg (by omega), Nat.add_sub_cancel_left, hstr, List.drop_replicate, valueOf_zero]
    congr 2
    funext i
    rw [List.getD_eq_getElem?_getD, List.getD_eq_getElem?_getD, List.getElem?_drop]
  -- the velocity vanishes
  have hen := fun c (hc : c < mesh.num2D) => cell_energy (hM.plane.element c hc) hT hsvd hsq hllt (hM.plane.measure c hc) (hP.created c hc) (hP.space c hc) (hP.cell c hc) hν hβ hγ (Z c)
  have hen0 : ∀ c < mesh.num2D, ∑ j ∈ Finset.range (n c * (k + 1) + k * (k + 2)), Z c j * apply (A c) (Z c) j
      + ∑ j ∈ Finset.range ((k + 1) * (k + 2) / 2), Z c (n c * (k + 1) + k * (k + 2) + j) * apply (A c) (Z c) (n c * (k + 1) + k * (k + 2) + j) = 0 := by
    intro c hc
    refine sum_zero_all (List.range mesh.num2D) (fun c => ∑ j ∈ Finset.range (n c * (k + 1) + k * (k + 2)), Z c j * apply (A c) (Z c) j
      + ∑ j ∈ Finset.range ((k + 1) * (k + 2) / 2), Z c (n c * (k + 1) + k * (k + 2) + j) * apply (A c) (Z c) (n c * (k + 1) + k * (k + 2) + j))
      (fun c hc => (hen c (List.mem_range.1 hc)).1) ?_ c (List.mem_range.2 hc)
    rw [← hrow fun i => free.getD i 0]
    congr 1
    refine List.map_congr_left fun c hc => ?_
    have hc := List.mem_range.1 hc
    congr 1
    · exact Finset.sum_congr rfl fun j hj => by rw [hv c hc j (Finset.mem_range.1 hj)]
    · exact Finset.sum_congr rfl fun j _ => by rw [hp c hc j]
  have hvel : ∀ c < mesh.num2D, ∀ j < n c * (k + 1) + k * (k + 2), Z c j = 0 := fun c hc => ((hen c hc).2 (hen0 c hc)).1
  -- the pressure vanishes
  have hpres : ∀ c < mesh.num2D, ∀ j < tri (k + 1), Z c (n c * (k + 1) + k * (k + 2) + j) = 0 := by
    rcases hconn with hpos | hconn
    · exact fun c hc j hj => ((hen c hc).2 (hen0 c hc)).2 hpos j (by rw [tri_div]; exact hj)
    have htest : ∀ φ : Nat → ℝ, (∀ c j, preTest k mesh d0 d1 φ c j = 0) → ∑ c ∈ Finset.range mesh.num2D, ∑ i ∈ Finset.range (tri (k + 1)),
        (bsum k (n c) (cellPoint mesh c) (len c) (dir c) ts ws (velTest k mesh d0 φ c) (basisPoly (k + 1) (poly c).centroid (poly c).diameter i)
          - if i = 0 then 0 else (poly c).measure * velTest k mesh d0 φ c (n c * (k + 1) + (i - 1))) * Z c (n c * (k + 1) + k * (k + 2) + i) = 0 := by
      intro φ hφ
      rw [← neg_eq_zero, ← Finset.sum_neg_distrib]
      refine Eq.trans ?_ (hrow φ)
      rw [Finset.sum_range, ← List.sum_ofFn]
      congr 1
      apply List.ext_getElem
      · simp
      · intro c h1 h2
        have hc : c < mesh.num2D := by simpa using h2
        simp only [List.getElem_ofFn, List.getElem_map, List.getElem_range, hφ, zero_mul, Finset.sum_const_zero, add_zero]
        exact (cell_pressure (hP.space c hc) (hP.cell c hc) hβ (hvel c hc) _).symm
    have hinner : ∀ c < mesh.num2D, ∀ i, i + 1 < tri (k + 1) → Z c (n c * (k + 1) + k * (k + 2) + (i + 1)) = 0 := by
      intro c hc i hi
      have hik : i < k * (k + 2) := by rw [mcc_internal]; omega
      obtain ⟨φ, hφ, hφp⟩ := exists_test (k := k) (mesh := mesh) H fun r => if r = ⟨2, c, i⟩ then 1 else 0
      have hdof : ∀ r, testValue d0 φ r = if r = ⟨2, c, i⟩ then 1 else 0 := by
        intro r
        obtain ⟨x, b, hx, hb, hxt, hkn⟩ := H.first.lookup_some (d := 2) (c := c) (j := i) le_rfl hc (by rw [(vel_num hT).2.2]; exact hik)
        have hd : typeFor b.type = .dof ∨ typeFor b.type = .strong := by
          rw [hxt] at hkn
          revert hkn
          cases typeFor b.type <;> simp
        have hd : typeFor b.type = .dof := hd.resolve_right fun h => hc0 c hc b hb (typeFor_strong h)
        by_cases hr : r = ⟨2, c, i⟩
        · subst hr
          obtain ⟨t, g⟩ := x
          rw [hd] at hxt
          dsimp only at hxt
          subst hxt
          exact hφ _ _ hx
        · rw [if_neg hr]
          cases hl : lookup d0 r with
          | none => rw [testValue, hl]
          | some y =>
            obtain ⟨t, g⟩ := y
            cases t with
            | dof => rw [hφ _ _ hl, if_neg hr]
            | _ => rw [testValue, hl]
      have hb : ∀ c' < mesh.num2D, ∀ q, bsum k (n c') (cellPoint mesh c') (len c') (dir c') ts ws (velTest k mesh d0 φ c') q = 0 := by
        intro c' hc' q
        rw [bsum_edges hM hT hc']
        refine Finset.sum_eq_zero fun e _ => ?_
        rw [Finset.sum_eq_zero fun j _ => ?_, zero_mul]
        rw [hdof, if_neg (by simp), mul_zero]
      have h := htest φ hφp
      rw [Finset.sum_eq_single_of_mem c (Finset.mem_range.2 hc), Finset.sum_eq_single_of_mem (i + 1) (Finset.mem_range.2 hi)] at h
      · rw [hb c hc, if_neg (by omega), Nat.add_sub_cancel, velTest_inner hM hT hc φ hik, hdof, if_pos rfl, mul_one, zero_sub] at h
        exact (mul_eq_zero.1 h).resolve_left (neg_ne_zero.2 (hM.plane.measure c hc).ne')
      · intro i' hi' hne
        rw [hb c hc]
        by_cases h0' : i' = 0
        · rw [if_pos h0', sub_zero, zero_mul]
        · have := Finset.mem_range.1 hi'
          rw [if_neg h0', velTest_inner hM hT hc φ (by rw [mcc_internal]; omega), hdof, if_neg (by simp; omega), mul_zero, sub_zero, zero_mul]
      · intro c' hc' hne
        have hc' := Finset.mem_range.1 hc'
        refine Finset.sum_eq_zero fun i' hi' => ?_
        rw [hb c' hc']
        by_cases h0' : i' = 0
        · rw [if_pos h0', sub_zero, zero_mul]
        · have := Finset.mem_range.1 hi'
          rw [if_neg h0', velTest_inner hM hT hc' φ (by rw [mcc_internal]; omega), hdof, if_neg (by simp [hne]), mul_zero, sub_zero, zero_mul]
    have hws : ∑ j ∈ Finset.range (k + 1), ws.getD j 0 = 1 := by
      have h1 := hT.edgeExact 1 (by simp)
      have h2 := sum_quadSum ts ws hT.edgeLength.symm (fun _ => 1) (fun t => (1 : Polynomial ℝ).eval t) (fun _ _ _ => by simp)
      rw [h1, hT.nodes] at h2
      simpa using h2
    -- the edges
    have hedge : ∀ c < mesh.num2D, ∀ e < n c, IsFreeEdge info0 (cellEdge mesh c e) → ∑ c' ∈ Finset.range mesh.num2D, ∑ e' ∈ Finset.range (n c'),
        (if cellEdge mesh c' e' = cellEdge mesh c e then sgn (dir c') e' * Z c' (n c' * (k + 1) + k * (k + 2)) else 0) = 0 := by
      rintro c hc e he ⟨b, hb, hbs⟩
      set E := cellEdge mesh c e with hE
      obtain ⟨φ, hφ, hφp⟩ := exists_test (k := k) (mesh := mesh) H fun r => if r.dim = 1 ∧ r.cell = E then 1 else 0
      have hE1 : E < (mesh.topo.markers 1).length := H.first.edges c hc _ (List.mem_of_getElem? (cell_edge_mem hM.plane hc he))
      have hon : ∀ j < k + 1, testValue d0 φ ⟨1, E, j⟩ = 1 := by
        intro j hj
        obtain ⟨x, b', hx, hb', hxt, hkn⟩ := H.first.lookup_some (d := 1) (c := E) (j := j) (by norm_num) hE1 (by rw [(vel_num hT).2.1]; exact hj)
        rw [hb] at hb'
        obtain rfl := Option.some.inj hb'
        have hd : typeFor b.type = .dof ∨ typeFor b.type = .strong := by
          rw [hxt] at hkn
          revert hkn
          cases typeFor b.type <;> simp
        have hd : typeFor b.type = .dof := hd.resolve_right fun h => hbs (typeFor_strong h)
        obtain ⟨t, g⟩ := x
        rw [hd] at hxt
        dsimp only at hxt
        subst hxt
        rw [hφ _ _ hx, if_pos ⟨rfl, rfl⟩]
      have hoff : ∀ r : GDOF, ¬ (r.dim = 1 ∧ r.cell = E) → testValue d0 φ r = 0 := by
        intro r hr
        cases hl : lookup d0 r with
        | none => rw [testValue, hl]
        | some y =>
          obtain ⟨t, g⟩ := y
          cases t with
          | dof => rw [hφ _ _ hl, if_neg hr]
          | _ => rw [testValue, hl]
      have h := htest φ hφp
      have hterm : ∀ c' ∈ Finset.range mesh.num2D, ∑ i ∈ Finset.range (tri (k + 1)),
          (bsum k (n c') (cellPoint mesh c') (len c') (dir c') ts ws (velTest k mesh d0 φ c') (basisPoly (k + 1) (poly c').centroid (poly c').diameter i)
            - if i = 0 then 0 else (poly c').measure * velTest k mesh d0 φ c' (n c' * (k + 1) + (i - 1))) * Z c' (n c' * (k + 1) + k * (k + 2) + i)
          = meshLength mesh E * ∑ e' ∈ Finset.range (n c'), (if cellEdge mesh c' e' = E then sgn (dir c') e' * Z c' (n c' * (k + 1) + k * (k + 2)) else 0) := by
        intro c' hc'
        have hc' := Finset.mem_range.1 hc'
        rw [Finset.sum_eq_single_of_mem 0 (Finset.mem_range.2 (by omega))]
        · rw [if_pos rfl, sub_zero, add_zero, bsum_edges hM hT hc', Finset.sum_mul, Finset.mul_sum]
          refine Finset.sum_congr rfl fun e' he' => ?_
          rw [basisPoly_zero]
          split_ifs with hEe
          · rw [hEe]
            have : ∑ j ∈ Finset.range (k + 1), ev2 1 (edgePoint mesh E (ts.getD j 0)) * (meshLength mesh E * ws.getD j 0) * testValue d0 φ ⟨1, E, j⟩ = meshLength mesh E := by
              rw [Finset.sum_congr rfl (g := fun j => meshLength mesh E * ws.getD j 0) fun j hj => by
                rw [hon j (Finset.mem_range.1 hj)]
                simp [ev2], ← Finset.mul_sum, hws, mul_one]
            rw [this]
            ring
          · rw [Finset.sum_eq_zero fun j _ => ?_, zero_mul, zero_mul, mul_zero]
            rw [hoff _ (by simp [hEe]), mul_zero]
        · intro i hi hne
          have hi := Finset.mem_range.1 hi
          obtain ⟨i, rfl⟩ := Nat.exists_eq_succ_of_ne_zero hne
          rw [hinner c' hc' i hi, mul_zero]
      rw [Finset.sum_congr rfl hterm, ← Finset.mul_sum] at h
      exact (mul_eq_zero.1 h).resolve_left (edge_length_pos hM hc he).ne'
    have hsne : ∀ c e, sgn (dir c) e ≠ 0 := fun c e h => by
      have := sgn_sq (dir c) e
      rw [h] at this
      simp at this
    have hout : ∀ c, IsOutlet info0 mesh n c → Z c (n c * (k + 1) + k * (k + 2)) = 0 := by
      rintro c ⟨hc, e, he, hfree, honly⟩
      have h := hedge c hc e he hfree
      rw [Finset.sum_eq_single_of_mem c (Finset.mem_range.2 hc), Finset.sum_eq_single_of_mem e (Finset.mem_range.2 he), if_pos rfl] at h
      · exact (mul_eq_zero.1 h).resolve_left (hsne c e)
      · intro e' he' hne
        exact if_neg fun hEe => hne (honly c hc e' (Finset.mem_range.1 he') hEe).2
      · intro c' hc' hne
        refine Finset.sum_eq_zero fun e' he' => ?_
        exact if_neg fun hEe => hne (honly c' (Finset.mem_range.1 hc') e' (Finset.mem_range.1 he') hEe).1
    have hadj : ∀ c c', Adjacent info0 mesh n dir c c' → Z c (n c * (k + 1) + k * (k + 2)) = Z c' (n c' * (k + 1) + k * (k + 2)) := by
      rintro c c' ⟨hc, hc', e, he, e', he', hEE, hdd, hfree, honly⟩
      by_cases hcc : c = c'
      · rw [hcc]
      have h := hedge c hc e he hfree
      have hsg : sgn (dir c') e' = -sgn (dir c) e := by
        unfold sgn
        revert hdd
        cases dir c e <;> cases dir c' e' <;> simp
      rw [Finset.sum_eq_add_of_mem c c' (Finset.mem_range.2 hc) (Finset.mem_range.2 hc') hcc, Finset.sum_eq_single_of_mem e (Finset.mem_range.2 he),
        Finset.sum_eq_single_of_mem e' (Finset.mem_range.2 he'), if_pos rfl, if_pos hEE.symm, hsg] at h
      · have := (mul_eq_zero.1 (show sgn (dir c) e * (Z c (n c * (k + 1) + k * (k + 2)) - Z c' (n c' * (k + 1) + k * (k + 2))) = 0 by linarith)).resolve_left (hsne c e)
        linarith
      · intro e'' he'' hne
        refine if_neg fun hEe => ?_
        rcases honly c' hc' e'' (Finset.mem_range.1 he'') hEe with h | h
        · exact hcc h.1.symm
        · exact hne h.2
      · intro e'' he'' hne
        refine if_neg fun hEe => ?_
        rcases honly c hc e'' (Finset.mem_range.1 he'') hEe with h | h
        · exact hne h.2
        · exact hcc h.1
      · intro c'' hc'' hne
        refine Finset.sum_eq_zero fun e'' he'' => ?_
        refine if_neg fun hEe => ?_
        rcases honly c'' (Finset.mem_range.1 hc'') e'' (Finset.mem_range.1 he'') hEe with h | h
        · exact hne.1 h.1
        · exact hne.2 h.1
    have hgen : ∀ a b, Relation.ReflTransGen (Adjacent info0 mesh n dir) a b → Z a (n a * (k + 1) + k * (k + 2)) = Z b (n b * (k + 1) + k * (k + 2)) := by
      intro a b h
      induction h with
      | refl => rfl
      | tail _ h2 ih => exact ih.trans (hadj _ _ h2)
    intro c hc j hj
    rcases j with _ | j
    · obtain ⟨c', h1, h2⟩ := hconn c hc
      rw [add_zero, hgen c c' h1]
      exact hout c' h2
    · exact hinner c hc j hj
  -- all degrees of freedom
  intro i hi
  by_cases hlt : i < d0.counters.dofs
  · obtain ⟨r, hr⟩ := H.first.ontoFree i hlt
    obtain ⟨hd, hrc, hrd⟩ := H.first.range _ _ hr
    have hval : valueOf d0 free strong r = free.getD i 0 := by rw [valueOf, hr]
    rw [← hval]
    obtain ⟨d, E, j⟩ := r
    dsimp only at hd hrc hrd
    obtain rfl | rfl | rfl : d = 0 ∨ d = 1 ∨ d = 2 := by omega
    · rw [(vel_num hT).1] at hrd
      omega
    · rw [(vel_num hT).2.1] at hrd
      obtain ⟨c, hc, e, he, rfl⟩ := hcover E hrc
      have hj : e * (k + 1) + j < n c * (k + 1) := by
        have : (e + 1) * (k + 1) ≤ n c * (k + 1) := Nat.mul_le_mul_right _ he
        rw [add_mul, one_mul] at this
        omega
      have := hvel c hc (e * (k + 1) + j) (by omega)
      rw [hZ] at this
      dsimp only at this
      rwa [Pair.pairValues, (vel_list hM hT hc).1, if_pos (by omega), onList, (vel_list hM hT hc).2.1 e he j hrd, Option.elim_some] at this
    · rw [(vel_num hT).2.2] at hrd
      have := hvel E hrc (n E * (k + 1) + j) (by omega)
      rw [hZ] at this
      dsimp only at this
      rwa [Pair.pairValues, (vel_list hM hT hrc).1, if_pos (by omega), onList, (vel_list hM hT hrc).2.2 j hrd, Option.elim_some] at this
  · obtain ⟨r, hr⟩ := H.second.ontoFree (i - d0.counters.dofs) (by omega)
    obtain ⟨hd, hrc, hrd⟩ := H.second.range _ _ hr
    have hval : valueOf d1 (free.drop d0.counters.dofs) (strong.drop d0.counters.strongs) r = free.getD i 0 := by
      rw [valueOf, hr]
      dsimp only
      rw [List.getD_eq_getElem?_getD, List.getElem?_drop, Nat.add_sub_cancel' (by omega), List.getD_eq_getElem?_getD]
    rw [← hval]
    obtain ⟨d, E, j⟩ := r
    dsimp only at hd hrc hrd
    obtain rfl | rfl | rfl : d = 0 ∨ d = 1 ∨ d = 2 := by omega
    · rw [(pre_num hT).1] at hrd
      omega
    · rw [(pre_num hT).2.1] at hrd
      omega
    · rw [(pre_num hT).2.2] at hrd
      have := hpres E hrc j (by rw [← tri_div]; exact hrd)
      rw [hZ] at this
      dsimp only at this
      rwa [Pair.pairValues, (vel_list hM hT hrc).1, if_neg (by omega), Nat.add_sub_cancel_left, onList, (pre_list hT mesh.topo E).2 j hrd, Option.elim_some] at this

end

end PolyDiM
