import Verif.Lemmas.MixedGlobal
import Verif.Lemmas.PatchGlobal
import Verif.Lemmas.VemMccExample

/-!
# Lemmas: the patch test of the mixed assembler
-/

namespace PolyDiM

open Spec MvPolynomial MeasureTheory

section
variable {k : Nat} {mesh : PlaneMesh ℝ} {poly : Nat → VemPolygon ℝ} {n : Nat → Nat} {len : Nat → Nat → ℝ} {dir : Nat → Nat → Bool} {nrm : Nat → Nat → ℝ × ℝ}
  {triangle : Nat → Rule (ℝ × ℝ) ℝ} {edge : Nat → Rule ℝ ℝ} {ts ws : List ℝ} {svd : DMat ℝ → DMat ℝ} {sqrt : ℝ → ℝ} {llt : Solver ℝ}
  {info0 info1 : MeshInfo} {d0 d1 : DOFsData} {count : CountData}

/-- The local vector of a cell, by references. -/
theorem pair_velocity (hM : IsMixedMesh k mesh poly n len dir nrm) (hT : IsMixedTables k triangle edge ts ws) {c : Nat} (hc : c < mesh.num2D) (free strong : List ℝ) {j : Nat}
    (hj : j < n c * (k + 1) + k * (k + 2)) :
    Pair.pairValues (mccVelocityNum k) (mccPressureNum k) mesh.topo d0 d1 free strong c j = velocityDofs k mesh n d0 free strong c j := by
  obtain ⟨h1, h2, h3⟩ := vel_list hM hT hc
  rw [Pair.pairValues, h1, if_pos hj, onList, velocityDofs]
  split_ifs with h
  · have he : j / (k + 1) < n c := Nat.div_lt_of_lt_mul (by rw [mul_comm]; exact h)
    have hi : j % (k + 1) < k + 1 := Nat.mod_lt _ (by omega)
    have := h2 _ he _ hi
    rw [Nat.div_add_mod'] at this
    rw [this, Option.elim_some]
  · have := h3 (j - n c * (k + 1)) (by omega)
    rw [Nat.add_sub_cancel' (by omega)] at this
    rw [this, Option.elim_some]

theorem pair_pressure (hM : IsMixedMesh k mesh poly n len dir nrm) (hT : IsMixedTables k triangle edge ts ws) {c : Nat} (hc : c < mesh.num2D) (free strong : List ℝ) {j : Nat}
    (hj : j < (k + 1) * (k + 2) / 2) :
    Pair.pairValues (mccVelocityNum k) (mccPressureNum k) mesh.topo d0 d1 free strong c (n c * (k + 1) + k * (k + 2) + j) = pressureDofs d0 d1 free strong c j := by
  obtain ⟨h1, h2, h3⟩ := vel_list hM hT hc
  rw [Pair.pairValues, h1, if_neg (by omega), Nat.add_sub_cancel_left, onList, (pre_list hT mesh.topo c).2 j hj]
  rfl

theorem velTest_edge (hM : IsMixedMesh k mesh poly n len dir nrm) (hT : IsMixedTables k triangle edge ts ws) {c e : Nat} (hc : c < mesh.num2D) (he : e < n c) (φ : Nat → ℝ) {i : Nat}
    (hi : i < k + 1) : velTest k mesh d0 φ c (e * (k + 1) + i) = testValue d0 φ ⟨1, cellEdge mesh c e, i⟩ := by
  rw [velTest, onList, (vel_list hM hT hc).2.1 e he i hi]
  rfl

/-- The boundary terms of the cells in terms of the edges of the mesh. -/
theorem bsum_edges (hM : IsMixedMesh k mesh poly n len dir nrm) (hT : IsMixedTables k triangle edge ts ws) {c : Nat} (hc : c < mesh.num2D) (φ : Nat → ℝ)
    (pr : MvPolynomial (Fin 2) ℝ) :
    bsum k (n c) (cellPoint mesh c) (len c) (dir c) ts ws (velTest k mesh d0 φ c) pr = ∑ e ∈ Finset.range (n c),
      (∑ j ∈ Finset.range (k + 1), ev2 pr (edgePoint mesh (cellEdge mesh c e) (ts.getD j 0)) * (meshLength mesh (cellEdge mesh c e) * ws.getD j 0)
        * testValue d0 φ ⟨1, cellEdge mesh c e, j⟩) * sgn (dir c) e := by
  unfold bsum
  refine Finset.sum_congr rfl fun e he => ?_
  have he := Finset.mem_range.1 he
  rw [Finset.sum_mul]
  refine Finset.sum_congr rfl fun j hj => ?_
  rw [edge_point hM.plane hc he, edge_length hM hc he, velTest_edge hM hT hc he φ (Finset.mem_range.1 hj)]
  ring

/-- The boundary terms cancel the weak terms. -/
theorem boundary_cancel (hM : IsMixedMesh k mesh poly n len dir nrm) (hT : IsMixedTables k triangle edge ts ws) (H : FHandler (mccVelocityNum k) mesh.topo info0 d0)
    (pr : MvPolynomial (Fin 2) ℝ) (weak : Nat → ℝ × ℝ → ℝ)
    (hweak : ∀ c < mesh.num2D, ∀ e < n c, ∀ b, (info0.bInfo 1)[cellEdge mesh c e]? = some b → b.type = .weak →
      ∀ t, weak b.marker (edgePoint mesh (cellEdge mesh c e) t) = ev2 pr (edgePoint mesh (cellEdge mesh c e) t))
    (hnone : ∀ E b, (info0.bInfo 1)[E]? = some b → b.type ≠ .weak → b.type ≠ .strong → signedSum mesh n dir E = 0) (φ : Nat → ℝ) :
    ((List.range mesh.num2D).map fun c => ∑ e ∈ Finset.range (n c), mixedWeak k mesh dir ts ws info0 d0 weak c e φ).sum
      = -((List.range mesh.num2D).map fun c => bsum k (n c) (cellPoint mesh c) (len c) (dir c) ts ws (velTest k mesh d0 φ c) pr).sum := by
  classical
  set G : Nat → ℝ := fun E => ∑ j ∈ Finset.range (k + 1), ev2 pr (edgePoint mesh E (ts.getD j 0)) * (meshLength mesh E * ws.getD j 0) * testValue d0 φ ⟨1, E, j⟩ with hG
  set G' : Nat → ℝ := fun E => ((info0.bInfo 1)[E]?).elim 0 fun b => if b.type = .weak then 0 else G E with hG'
  set σ : Nat → Nat → ℤ := fun c e => if dir c e then 1 else -1 with hσ
  have hs : ∀ c e, sgn (dir c) e = (σ c e : ℝ) := by
    intro c e
    simp only [sgn, hσ]
    split_ifs <;> simp
  have hre := regroup (List.range mesh.num2D) n (cellEdge mesh) σ (mesh.topo.markers 1).length (fun c hc e he => H.edges c (List.mem_range.1 hc) _
    (List.mem_of_getElem? (cell_edge_mem hM.plane (List.mem_range.1 hc) he))) G'
  have hzero : ∀ E ∈ Finset.range (mesh.topo.markers 1).length, G' E * ((signedSum mesh n dir E : ℤ) : ℝ) = 0 := by
    intro E hE
    obtain ⟨x, b, hx, hb, -, hl, ht⟩ := H.cell 1 (by norm_num) E (Finset.mem_range.1 hE)
    simp only [hG', hb, Option.elim_some]
    split_ifs with hw
    · rw [zero_mul]
    · by_cases hst : b.type = .strong
      · have : G E = 0 := by
          refine Finset.sum_eq_zero fun j _ => ?_
          have : testValue d0 φ ⟨1, E, j⟩ = 0 := by
            rw [testValue, Handler.lookup_cell hx]
            cases hj : x.dofs[j]? with
            | none => rfl
            | some y =>
              have := ht y (List.mem_of_getElem? hj)
              rw [hst] at this
              obtain ⟨t, i⟩ := y
              dsimp only at this
              subst this
              rfl
          rw [this, mul_zero]
        rw [this, zero_mul]
      · rw [hnone E b hb hw hst, Int.cast_zero, mul_zero]
  replace hre := hre.trans (Finset.sum_eq_zero hzero)
  rw [eq_neg_iff_add_eq_zero, ← List.sum_map_add, ← hre]
  congr 1
  refine List.map_congr_left fun c hc => ?_
  have hc := List.mem_range.1 hc
  rw [bsum_edges hM hT hc, ← Finset.sum_add_distrib]
  refine Finset.sum_congr rfl fun e he => ?_
  have he := Finset.mem_range.1 he
  obtain ⟨x, b, hx, hb, -, hl, ht⟩ := H.cell 1 (by norm_num) _ (H.edges c hc _ (List.mem_of_getElem? (cell_edge_mem hM.plane hc he)))
  show mixedWeak k mesh dir ts ws info0 d0 weak c e φ + G (cellEdge mesh c e) * sgn (dir c) e = _
  simp only [hG', mixedWeak, hb, Option.elim_some, ← hs]
  split_ifs with hw
  · rw [zero_mul, hG, Finset.sum_mul, ← Finset.sum_neg_distrib, ← Finset.sum_add_distrib]
    refine Finset.sum_eq_zero fun j _ => ?_
    rw [hweak c hc e he b hb hw]
    ring
  · rw [zero_add]

/-- The projection of a polynomial on the pressures of a cell. -/
theorem exists_projection {n : Nat} {V : Nat → ℝ × ℝ} {len : Nat → ℝ} {dir : Nat → Bool} {nrm : Nat → ℝ × ℝ} {poly : VemPolygon ℝ} {s : MccSpace2D ℝ}
    (hE : IsElement poly n V len dir nrm) (hs : MSpaceOk k n V len dir nrm ts ws poly s) (hllt : SolvesPosDef llt) (pr : MvPolynomial (Fin 2) ℝ) :
    ∃ y : Nat → ℝ, ∀ i < tri (k + 1), quadLin s.internal.points s.internal.weights (basisPoly (k + 1) poly.centroid poly.diameter i *
      (pr - combo (k + 1) poly.centroid poly.diameter (tri (k + 1)) y)) = 0 := by
  set B : DMat ℝ := ⟨tri (k + 1), 1, fun i _ => quadLin s.internal.points s.internal.weights (basisPoly (k + 1) poly.centroid poly.diameter i * pr)⟩ with hB
  have h := mH_posdef hE hs.rules hE.diameter hs.init hllt (B := B) rfl
  refine ⟨fun j => (llt s.init.H B).ent j 0, fun i hi => ?_⟩
  have h1 := h.2.2 i (by rw [hs.init.hRows]; exact hi) 0 (by rw [hB]; norm_num)
  rw [mul_sub, map_sub, quadLin_combo, sub_eq_zero]
  rw [hs.init.hCols] at h1
  refine Eq.trans h1.symm (Finset.sum_congr rfl fun j hj => ?_)
  rw [hs.init.hEnt i hi j (Finset.mem_range.1 hj)]

theorem list_sum_sub {α : Type*} (l : List α) (f g : α → ℝ) : (l.map fun a => f a - g a).sum = (l.map f).sum - (l.map g).sum := by
  induction l with
  | nil => simp
  | cons a l ih => simp only [List.map_cons, List.sum_cons, ih]; ring

/-- Global vectors with given values. -/
theorem exists_free {num0 num1 : Nat → Nat} {topo : Mesh} (H : Pair num0 num1 topo info0 info1 d0 d1) (χ0 χ1 : GDOF → ℝ) :
    ∃ free : List ℝ, free.length = d0.counters.dofs + d1.counters.dofs ∧ (∀ r i, lookup d0 r = some ⟨.dof, i⟩ → free.getD i 0 = χ0 r) ∧
      ∀ r i, lookup d1 r = some ⟨.dof, i⟩ → (free.drop d0.counters.dofs).getD i 0 = χ1 r := by
  have : Nonempty GDOF := ⟨⟨0, 0, 0⟩⟩
  choose! r0 h0 using H.first.ontoFree
  choose! r1 h1 using H.second.ontoFree
  refine ⟨(List.range (d0.counters.dofs + d1.counters.dofs)).map fun i => if i < d0.counters.dofs then χ0 (r0 i) else χ1 (r1 (i - d0.counters.dofs)), by simp, ?_, ?_⟩
  · intro r i hr
    have hi := H.first.free r i hr
    rw [List.getD_eq_getElem?_getD, List.getElem?_map, List.getElem?_range (by omega), Option.map_some, Option.getD_some, if_pos hi,
      H.first.inj _ _ _ (h0 i hi) hr (by simp)]
  · intro r i hr
    have hi := H.second.free r i hr
    rw [List.getD_eq_getElem?_getD, List.getElem?_drop, List.getElem?_map, List.getElem?_range (by omega), Option.map_some, Option.getD_some, if_neg (by omega),
      Nat.add_sub_cancel_left, H.second.inj _ _ _ (h1 i hi) hr (by simp)]

theorem fluxDofs_congr {n : Nat} {dir : Nat → Bool} {poly : VemPolygon ℝ} {plus : Nat → Nat → ℝ} {u : ℝ × ℝ → ℝ × ℝ} {flux : Nat → Polynomial ℝ} {v w : Nat → ℝ}
    (hT : IsMixedTables k triangle edge ts ws) (hv : IsFluxDofs k poly n dir ts plus u flux v) (h : ∀ j < n * (k + 1) + k * (k + 2), w j = v j) :
    IsFluxDofs k poly n dir ts plus u flux w := by
  obtain ⟨t1, t2⟩ := mcc_counts k
  refine ⟨fun e he i t hi => ?_, fun a b h0 hab => ?_, fun l hl => ?_⟩
  · have hlt : i < k + 1 := by rw [← hT.nodes]; exact (List.getElem?_eq_some_iff.1 hi).1
    rw [← hv.edge e he i t hi]
    refine h _ ?_
    have : (e + 1) * (k + 1) ≤ n * (k + 1) := Nat.mul_le_mul_right _ he
    rw [add_mul, one_mul] at this
    omega
  · rw [← hv.nabla a b h0 hab]
    refine h _ ?_
    have : position a b < tri (k + 1) := position_lt.2 hab
    have : tri (k + 1) - 1 + tri k = k * (k + 2) := by rw [mcc_internal]
    have : 0 < tri (k + 1) := by omega
    omega
  · rw [← hv.plus l hl]
    refine h _ ?_
    have h1 : tri (k + 1) - 1 + tri k = k * (k + 2) := by rw [mcc_internal]
    rw [tri_div'] at hl
    rw [tri_div]
    omega

/-- The vector of the exact degrees of freedom solves the assembled system. -/
theorem mixed_patch (hM : IsMixedMesh k mesh poly n len dir nrm) (hT : IsMixedTables k triangle edge ts ws) (hsvd : ∀ A, RightSingular A (svd A))
    (hsq : ∀ x, 0 ≤ x → sqrt x * sqrt x = x) (hllt : SolvesPosDef llt) (H : Pair (mccVelocityNum k) (mccPressureNum k) mesh.topo info0 info1 d0 d1)
    {test : MixedTest ℝ} {s : Nat → MccSpace2D ℝ} {p : Nat → MccPressure2D ℝ} {S A : Nat → DMat ℝ} {b : Nat → List ℝ} {kmax : Nat → ℝ} {P : MixedProblem ℝ}
    (hP : MSystem k mesh poly n len dir nrm triangle edge ts ws svd sqrt llt info0 d0 d1 test s p S A b kmax P)
    {q : MvPolynomial (Fin 2) ℝ × MvPolynomial (Fin 2) ℝ} (hq1 : q.1.totalDegree ≤ k) (hq2 : q.2.totalDegree ≤ k)
    {pr : MvPolynomial (Fin 2) ℝ} (hpr : pr.totalDegree ≤ k + 1)
    (hν : ∀ x, ∀ a : Fin 2, ∑ c ∈ Finset.range 2, test.inverseDiffusion x (a.val + 3 * c) * component (polyField q x) c = -ev2 (pderiv a pr) x + test.advection x a.val * ev2 pr x)
    (hf : ∀ x, test.source x = ev2 (pderiv 0 q.1 + pderiv 1 q.2) x + test.reaction x * ev2 pr x)
    (hlow : pr.totalDegree ≤ k ∨ ∀ x, test.reaction x = 0 ∧ ∀ a < 2, test.advection x a = 0)
    (hweak : ∀ c < mesh.num2D, ∀ e < n c, ∀ b, (info0.bInfo 1)[cellEdge mesh c e]? = some b → b.type = .weak →
      ∀ t, test.weak b.marker (edgePoint mesh (cellEdge mesh c e) t) = ev2 pr (edgePoint mesh (cellEdge mesh c e) t))
    (hstrong : ∀ c < mesh.num2D, ∀ e < n c, ∀ b, (info0.bInfo 1)[cellEdge mesh c e]? = some b → b.type = .strong →
      ∀ t, test.strong b.marker (edgePoint mesh (cellEdge mesh c e) t) = dot2 (polyField q (edgePoint mesh (cellEdge mesh c e) t)) (nrm c e))
    (hnone : ∀ E b, (info0.bInfo 1)[E]? = some b → b.type ≠ .weak → b.type ≠ .strong → signedSum mesh n dir E = 0)
    (hc0 : ∀ c < mesh.num2D, ∀ b, (info0.bInfo 2)[c]? = some b → b.type ≠ .strong) (hc1 : ∀ c < mesh.num2D, ∀ b, (info1.bInfo 2)[c]? = some b → b.type ≠ .strong) :
    ∃ free : List ℝ, free.length = d0.counters.dofs + d1.counters.dofs ∧
      (∀ i < d0.counters.dofs + d1.counters.dofs, ∑ j ∈ Finset.range free.length, entry P.globalMatrix i j * free.getD j 0 = ventry P.rightHandSide i) ∧
      ∀ c < mesh.num2D, (∃ flux, IsNormalTrace (n c) (cellPoint mesh c) (nrm c) (polyField q) flux ∧
          IsFluxDofs k (poly c) (n c) (dir c) ts (s c).init.tPlus.ent (polyField q) flux (velocityDofs k mesh n d0 free P.neumann c)) ∧
        ∀ i < tri (k + 1), quadLin (s c).internal.points (s c).internal.weights (basisPoly (k + 1) (poly c).centroid (poly c).diameter i *
          (pr - combo (k + 1) (poly c).centroid (poly c).diameter (tri (k + 1)) (pressureDofs d0 d1 free P.neumann c))) = 0 := by
  classical
  have hqd : ∀ d, ((![q.1, q.2] : Fin 2 → MvPolynomial (Fin 2) ℝ) d).totalDegree ≤ k := by
    intro d
    fin_cases d
    · exact hq1
    · exact hq2
  choose flux hflux hfluxd using fun c => mcc_exists_trace ![q.1, q.2] hqd (n c) (cellPoint mesh c) (nrm c)
  have hflux' : ∀ c, IsNormalTrace (n c) (cellPoint mesh c) (nrm c) (polyField q) (flux c) := hflux
  choose w hw using fun c => exists_fluxDofs k (poly c) (n c) (dir c) ts hT.nodes (s c).init.tPlus.ent (polyField q) (flux c)
  choose! y hy using fun (c : Nat) (hc : c < mesh.num2D) => exists_projection (hM.plane.element c hc) (hP.space c hc) hllt pr
  obtain ⟨free, hfl, hf0, hf1⟩ := exists_free H (fun r => if r.dim = 1 then dot2 (polyField q (edgePoint mesh r.cell (ts.getD r.dof 0))) (meshNormal mesh r.cell)
    else w r.cell (n r.cell * (k + 1) + r.dof)) (fun r => y r.cell r.dof)
  obtain ⟨-, vn1, vn2⟩ := vel_num hT
  obtain ⟨-, -, pn2⟩ := pre_num hT
  have hz : ∀ c < mesh.num2D, ∀ j < n c * (k + 1) + k * (k + 2), velocityDofs k mesh n d0 free P.neumann c j = w c j := by
    intro c hc j hj
    rw [velocityDofs]
    split_ifs with hlt
    · have he : j / (k + 1) < n c := Nat.div_lt_of_lt_mul (by rw [mul_comm]; exact hlt)
      have hi : j % (k + 1) < k + 1 := Nat.mod_lt _ (by omega)
      set e := j / (k + 1) with hedef
      set i := j % (k + 1) with hidef
      have hji : j = e * (k + 1) + i := (Nat.div_add_mod' j (k + 1)).symm
      have hit : i < ts.length := by rw [hT.nodes]; exact hi
      have hE' := H.first.edges c hc _ (List.mem_of_getElem? (cell_edge_mem hM.plane hc he))
      have hval : valueOf d0 free P.neumann ⟨1, cellEdge mesh c e, i⟩
          = dot2 (polyField q (edgePoint mesh (cellEdge mesh c e) (ts.getD i 0))) (meshNormal mesh (cellEdge mesh c e)) := by
        obtain ⟨x, m, hx, hm, -, hl, ht⟩ := H.first.cell 1 (by norm_num) _ hE'
        rw [vn1] at hl
        have hxi := List.getElem?_eq_getElem (show i < x.dofs.length by omega)
        have hlk : lookup d0 ⟨1, cellEdge mesh c e, i⟩ = some x.dofs[i] := by rw [Handler.lookup_cell hx, hxi]
        have hty := ht _ (List.mem_of_getElem? hxi)
        have hkn := H.first.known _ _ hlk
        generalize x.dofs[i] = d at *
        obtain ⟨t, g⟩ := d
        rw [valueOf, hlk]
        cases t with
        | unknwon => exact absurd rfl hkn
        | dof =>
          dsimp only
          rw [hf0 _ _ hlk, if_pos rfl]
        | strong =>
          dsimp only
          obtain ⟨c', hc', e', he', hE, m', hm', hv⟩ := hP.neumann c hc e he i g hlk
          rw [hm] at hm'
          obtain rfl := Option.some.inj hm'
          have hms := typeFor_strong hty.symm
          rw [hv]
          rw [← hE] at hm ⊢
          rw [hstrong c' hc' e' he' m hm hms, edge_normal hM hc' he']
          have := sgn_sq (dir c') e'
          simp only [dot2, Prod.smul_fst, Prod.smul_snd, smul_eq_mul]
          linear_combination ((polyField q (edgePoint mesh (cellEdge mesh c' e') (ts.getD i 0))).1 * (meshNormal mesh (cellEdge mesh c' e')).1
            + (polyField q (edgePoint mesh (cellEdge mesh c' e') (ts.getD i 0))).2 * (meshNormal mesh (cellEdge mesh c' e')).2) * this
      rw [hval, hji, (hw c).edge e he i _ (List.getElem?_eq_getElem hit), hflux' c e he, hflux' c e he, edge_normal hM hc he, ← edge_point hM.plane hc he,
        List.getD_eq_getElem?_getD, List.getElem?_eq_getElem hit, Option.getD_some]
      unfold sgn polyEdge
      cases dir c e with
      | true => simp
      | false =>
        have : segPoint (cellPoint mesh c ((e + 1) % n c)) (cellPoint mesh c e) ts[i] = segPoint (cellPoint mesh c e) (cellPoint mesh c ((e + 1) % n c)) (1 - ts[i]) := by
          simp only [segPoint, Prod.mk.injEq]
          constructor <;> ring
        rw [if_neg (by simp), if_neg (by simp), if_neg (by simp)]
        simp only [this, dot2, Prod.smul_fst, Prod.smul_snd, smul_eq_mul]
        ring
    · obtain ⟨x, m, hx, hm, -, hl, ht⟩ := H.first.cell 2 le_rfl c hc
      rw [vn2] at hl
      have hxi := List.getElem?_eq_getElem (show j - n c * (k + 1) < x.dofs.length by omega)
      have hlk : lookup d0 ⟨2, c, j - n c * (k + 1)⟩ = some x.dofs[j - n c * (k + 1)] := by rw [Handler.lookup_cell hx, hxi]
      have hty := ht _ (List.mem_of_getElem? hxi)
      have hkn := H.first.known _ _ hlk
      generalize x.dofs[j - n c * (k + 1)] = d at *
      obtain ⟨t, g⟩ := d
      rw [valueOf, hlk]
      cases t with
      | unknwon => exact absurd rfl hkn
      | dof =>
        dsimp only
        rw [hf0 _ _ hlk, if_neg (by norm_num)]
        dsimp only
        rw [Nat.add_sub_cancel' (by omega)]
      | strong => exact absurd (typeFor_strong hty.symm) (hc0 c hc m hm)
  have hp : ∀ c < mesh.num2D, ∀ j < (k + 1) * (k + 2) / 2, pressureDofs d0 d1 free P.neumann c j = y c j := by
    intro c hc j hj
    obtain ⟨x, m, hx, hm, -, hl, ht⟩ := H.second.cell 2 le_rfl c hc
    rw [pn2] at hl
    have hxi := List.getElem?_eq_getElem (show j < x.dofs.length by omega)
    have hlk : lookup d1 ⟨2, c, j⟩ = some x.dofs[j] := by rw [Handler.lookup_cell hx, hxi]
    have hty := ht _ (List.mem_of_getElem? hxi)
    have hkn := H.second.known _ _ hlk
    generalize x.dofs[j] = d at *
    obtain ⟨t, g⟩ := d
    rw [pressureDofs, valueOf, hlk]
    cases t with
    | unknwon => exact absurd rfl hkn
    | dof =>
      dsimp only
      rw [hf1 _ _ hlk]
    | strong => exact absurd (typeFor_strong hty.symm) (hc1 c hc m hm)
  have hcombo : ∀ c < mesh.num2D, ∀ z : Nat → ℝ, (∀ j < (k + 1) * (k + 2) / 2, z j = y c j) →
      combo (k + 1) (poly c).centroid (poly c).diameter (tri (k + 1)) z = combo (k + 1) (poly c).centroid (poly c).diameter (tri (k + 1)) (y c) := by
    intro c hc z hz
    refine Finset.sum_congr rfl fun j hj => ?_
    rw [hz j (by rw [tri_div]; exact Finset.mem_range.1 hj)]
  have hpolyOf : ∀ c (z : Nat → ℝ) x, polyOf k (poly c).centroid (poly c).diameter z x = ev2 (combo (k + 1) (poly c).centroid (poly c).diameter (tri (k + 1)) z) x :=
    fun c z x => (ev2_combo (k + 1) _ _ (show k ≤ k + 1 by omega) _ _).symm
  refine ⟨free, hfl, ?_, fun c hc => ⟨⟨flux c, hflux' c, fluxDofs_congr hT (hw c) (hz c hc)⟩, fun i hi => ?_⟩⟩
  swap
  · rw [hcombo c hc _ (hp c hc)]
    exact hy c hc i hi
  -- the cells
  have hcell : ∀ c < mesh.num2D, ∀ v r : Nat → ℝ, ∑ j ∈ Finset.range (n c * (k + 1) + k * (k + 2)), v j *
        apply (A c) (Pair.pairValues (mccVelocityNum k) (mccPressureNum k) mesh.topo d0 d1 free P.neumann c) j
      + ∑ j ∈ Finset.range ((k + 1) * (k + 2) / 2), r j *
        apply (A c) (Pair.pairValues (mccVelocityNum k) (mccPressureNum k) mesh.topo d0 d1 free P.neumann c) (n c * (k + 1) + k * (k + 2) + j)
      = ∑ j ∈ Finset.range (n c * (k + 1) + k * (k + 2)), v j * (b c).getD j 0
        + ∑ j ∈ Finset.range ((k + 1) * (k + 2) / 2), r j * (b c).getD (n c * (k + 1) + k * (k + 2) + j) 0
        - bsum k (n c) (cellPoint mesh c) (len c) (dir c) ts ws v pr := by
    intro c hc v r
    have hfd : IsFluxDofs k (poly c) (n c) (dir c) ts (s c).init.tPlus.ent (polyField q) (flux c)
        (Pair.pairValues (mccVelocityNum k) (mccPressureNum k) mesh.topo d0 d1 free P.neumann c) :=
      fluxDofs_congr hT (hw c) fun j hj => (pair_velocity hM hT hc free P.neumann hj).trans (hz c hc j hj)
    have hph : ∀ x, polyOf k (poly c).centroid (poly c).diameter
        (fun j => Pair.pairValues (mccVelocityNum k) (mccPressureNum k) mesh.topo d0 d1 free P.neumann c (n c * (k + 1) + k * (k + 2) + j)) x
        = ev2 (combo (k + 1) (poly c).centroid (poly c).diameter (tri (k + 1)) (y c)) x := by
      intro x
      rw [hpolyOf, hcombo c hc _ fun j hj => (pair_pressure hM hT hc free P.neumann hj).trans (hp c hc j hj)]
    have hlow' : ev2 pr = ev2 (combo (k + 1) (poly c).centroid (poly c).diameter (tri (k + 1)) (y c)) ∨ ∀ x, test.reaction x = 0 ∧ ∀ a < 2, test.advection x a = 0 := by
      rcases hlow with hlow | hlow
      · left
        obtain ⟨x, hx⟩ := basisPoly_span (k + 1) (poly c).centroid (poly c).diameter (hM.plane.element c hc).diameter (show k ≤ k + 1 by omega) pr hlow
        have hx' : pr = combo (k + 1) (poly c).centroid (poly c).diameter (tri (k + 1)) x := hx
        have := mH_ext (hM.plane.element c hc) (hP.space c hc) (x := x) (y := y c) (by
          intro i hi
          have := hy c hc i hi
          rw [mul_sub, map_sub, sub_eq_zero] at this
          rw [← hx', this])
        rw [hx']
        congr 1
        refine Finset.sum_congr rfl fun j hj => ?_
        rw [this j (Finset.mem_range.1 hj)]
      · exact Or.inr hlow
    refine cell_patch (hM.plane.element c hc) hT hsvd hsq hllt (hP.created c hc) (hP.space c hc) (hP.cell c hc) hq1 hq2 (hflux' c) hfd hpr (fun x _ a => hν x a) (fun x _ => hf x)
      (fun x _ a ha => ?_) (fun x _ => ?_) (fun z => ?_) v r
    · rw [hph]
      rcases hlow' with h | h
      · rw [h, sub_self, mul_zero]
      · rw [(h x).2 a ha, zero_mul]
    · rw [hph]
      rcases hlow' with h | h
      · rw [h, sub_self, mul_zero]
      · rw [(h x).1, zero_mul]
    · have h1 : quadLin (s c).internal.points (s c).internal.weights ((pr - combo (k + 1) (poly c).centroid (poly c).diameter (tri (k + 1)) (y c)) *
          combo (k + 1) (poly c).centroid (poly c).diameter (tri (k + 1)) z) = 0 := by
        rw [quadLin_combo]
        refine Finset.sum_eq_zero fun j hj => ?_
        rw [mul_comm (pr - _), hy c hc j (Finset.mem_range.1 hj), zero_mul]
      rw [← h1]
      refine quadSum_congr _ _ fun x _ => ?_
      rw [hph, hpolyOf]
      simp [ev2]
  have hall : ∀ φ : Nat → ℝ, ∑ i ∈ Finset.range (d0.counters.dofs + d1.counters.dofs), φ i *
        (∑ j ∈ Finset.range free.length, entry P.globalMatrix i j * free.getD j 0 - ventry P.rightHandSide i) = 0 := by
    intro φ
    have h1 := hP.rows free P.neumann hfl hP.neumannLength φ
    have h2 := hP.rhs φ
    rw [boundary_cancel hM hT H.first pr test.weak hweak hnone φ] at h2
    rw [List.map_congr_left (fun c hc => hcell c (List.mem_range.1 hc) _ _), list_sum_sub, sub_eq_add_neg, ← h2] at h1
    rw [← sub_eq_zero, ← Finset.sum_sub_distrib] at h1
    refine Eq.trans (Finset.sum_congr rfl fun i _ => ?_) h1
    ring
  intro i hi
  have := hall fun j => if j = i then 1 else 0
  rw [Finset.sum_eq_single_of_mem i (Finset.mem_range.2 hi) (fun j _ hj => by rw [if_neg hj, zero_mul]), if_pos rfl, one_mul] at this
  exact sub_eq_zero.1 this

end

end PolyDiM
