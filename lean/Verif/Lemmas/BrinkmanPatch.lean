import Verif.Lemmas.BrinkmanTest
import Verif.Props.AssemblerDf2D
import Verif.Spec.DfFlow

/-!
# The boundary terms of the Brinkman problem over the mesh
-/

namespace PolyDiM

open Spec MvPolynomial MeasureTheory

variable {k : Nat} {mesh : PlaneMesh ℝ} {poly : Nat → VemPolygon ℝ} {n : Nat → Nat} {len : Nat → Nat → ℝ} {dir : Nat → Nat → Bool} {nrm : Nat → Nat → ℝ × ℝ}
  {triangle : Nat → Rule (ℝ × ℝ) ℝ} {edge : Nat → Rule ℝ ℝ} {ts ws ss vs : List ℝ} {w v₀ : ℝ} {ref : DfRef2D ℝ} {red : Bool} {sqrt : ℝ → ℝ} {lu llt : Solver ℝ}
  {boundary : Nat → Nat → Option BInfo} {info : Nat → MeshInfo} {D : Nat → DOFsData} {count : CountData} {gauss : Nat → Rule ℝ ℝ}

theorem border_vertex {c e : Nat} (he : e < n c) : borderRef k mesh n c e = ⟨0, cellVertex mesh c e, 0⟩ := by rw [borderRef, if_pos he]

theorem border_node {c e i : Nat} (hi : i < k - 1) : borderRef k mesh n c (n c + e * (k - 1) + i) = ⟨1, cellEdge mesh c e, i⟩ := by
  rw [borderRef, if_neg (by omega), show n c + e * (k - 1) + i - n c = e * (k - 1) + i by omega, Nat.add_comm (e * (k - 1)), Nat.add_mul_mod_self_right, Nat.mod_eq_of_lt hi,
    Nat.add_mul_div_right _ _ (by omega), Nat.div_eq_of_lt hi, zero_add]

theorem node_index {N e i a : Nat} (he : e < N) (hi : i < a) : N + e * a + i < N + N * a := by
  have : (e + 1) * a ≤ N * a := Nat.mul_le_mul_right a he
  rw [add_mul, one_mul] at this
  omega

/-- The DOFs of component `h` of a velocity on the boundary of a cell. -/
theorem flow_border (free strong : List ℝ) {c h j : Nat} (hh : h < 2) (hj : j < n c + n c * (k - 1)) :
    flowVelocity k mesh n D free strong c (h * (n c + n c * (k - 1)) + j) = fieldValue D free strong (h, borderRef k mesh n c j) := by
  unfold flowVelocity
  rcases (show h = 0 ∨ h = 1 by omega) with rfl | rfl
  · rw [zero_mul, zero_add, if_pos hj]
  · rw [one_mul, if_neg (by omega), if_pos (by omega), Nat.add_sub_cancel_left]

/-- Polynomials of degree at most `k` that agree at the ends and at the nodes of an edge. -/
theorem nodes_unique (hT : IsDfTables k triangle edge ts ws w ss vs v₀) {r r' : Polynomial ℝ} (hr : r.natDegree ≤ k) (hr' : r'.natDegree ≤ k) (h0 : r.eval 0 = r'.eval 0)
    (h1 : r.eval 1 = r'.eval 1) (ht : ∀ (i : Nat) (t : ℝ), ts[i]? = some t → r.eval t = r'.eval t) : r = r' := by
  have hk := hT.low
  have hl : (0 :: 1 :: ts).length = k + 1 := by
    rw [List.length_cons, List.length_cons, hT.nodes]
    omega
  have hinj := nodes_injOn hT.distinct
  rw [hl] at hinj
  refine Polynomial.eq_of_degrees_lt_of_eval_index_eq (Finset.range (k + 1)) (v := fun j => (0 :: 1 :: ts).getD j 0) hinj ?_ ?_ fun j hj => ?_
  · rw [Finset.card_range]
    exact lt_of_le_of_lt Polynomial.degree_le_natDegree (by exact_mod_cast Nat.lt_succ_of_le hr)
  · rw [Finset.card_range]
    exact lt_of_le_of_lt Polynomial.degree_le_natDegree (by exact_mod_cast Nat.lt_succ_of_le hr')
  · have hj := Finset.mem_range.1 hj
    rcases j with _ | _ | j
    · simpa using h0
    · simpa using h1
    · have hj' : j < ts.length := by rw [hT.nodes]; omega
      have hg : (0 :: 1 :: ts).getD (j + 2) 0 = ts[j] := by simp [hj']
      rw [hg]
      exact ht j _ (List.getElem?_eq_getElem hj')

/-- The trace of a velocity on an edge of the mesh. -/
theorem velocity_on_edge (hM : IsPlaneMesh 1 mesh poly n len dir nrm) (hT : IsDfTables k triangle edge ts ws w ss vs v₀) {m c e h : Nat} (hc : c < mesh.num2D) (he : e < n c)
    (hh : h < 2) (hE : cellEdge mesh c e < mesh.num1D) {free strong : List ℝ} {u : ℝ × ℝ → ℝ × ℝ} {P : MvPolynomial (Fin 2) ℝ}
    (hu : EdgePolynomial k (n c) (cellPoint mesh c) fun p => pick (u p) h)
    (hv : IsVelocityDofs k m (poly c) (n c) (cellPoint mesh c) (dir c) ts u P (flowVelocity k mesh n D free strong c)) {U : Nat → Polynomial ℝ}
    (hU : IsTrace k mesh ts (fun r => fieldValue D free strong (h, r)) U) {t : ℝ} (t0 : 0 ≤ t) (t1 : t ≤ 1) :
    pick (u (edgePoint mesh (cellEdge mesh c e) t)) h = (U (cellEdge mesh c e)).eval t := by
  have hk := hT.two
  obtain ⟨r, hr, hru⟩ := edge_trace hu he (dir c e)
  simp only [edge_point hM hc he] at hru
  obtain ⟨d1, d2, d3, d4⟩ := hU _ hE
  have hvert : ∀ a < n c, pick (u (cellPoint mesh c a)) h = fieldValue D free strong (h, ⟨0, cellVertex mesh c a, 0⟩) := by
    intro a ha
    rw [← border_vertex (k := k) ha, ← flow_border free strong hh (by omega)]
    rcases (show h = 0 ∨ h = 1 by omega) with rfl | rfl
    · rw [zero_mul, zero_add, hv.vertexFirst a ha]; rfl
    · rw [one_mul, hv.vertexSecond a ha]; rfl
  have hnode : ∀ i t, ts[i]? = some t → pick (u (edgePoint mesh (cellEdge mesh c e) t)) h = fieldValue D free strong (h, ⟨1, cellEdge mesh c e, i⟩) := by
    intro i t hi
    have hil : i < k - 1 := by rw [← hT.nodes]; exact (List.getElem?_eq_some_iff.1 hi).1
    rw [← border_node (k := k) (n := n) hil, ← flow_border free strong hh (node_index he hil), ← edge_point hM hc he]
    rcases (show h = 0 ∨ h = 1 by omega) with rfl | rfl
    · rw [zero_mul, zero_add, hv.nodeFirst e he i t hi]; rfl
    · rw [one_mul, hv.nodeSecond e he i t hi]; rfl
  have hp0 : edgePoint mesh (cellEdge mesh c e) 0 = mesh.coords (mesh.topo.cell1DVertices (cellEdge mesh c e)).1 := by ext <;> simp [edgePoint, segPoint]
  have hp1 : edgePoint mesh (cellEdge mesh c e) 1 = mesh.coords (mesh.topo.cell1DVertices (cellEdge mesh c e)).2 := by ext <;> simp [edgePoint, segPoint]
  have hmod : (e + 1) % n c < n c := Nat.mod_lt _ (by omega)
  have hends := hM.ends c hc e he
  have hend : pick (u (mesh.coords (mesh.topo.cell1DVertices (cellEdge mesh c e)).1)) h = fieldValue D free strong (h, ⟨0, (mesh.topo.cell1DVertices (cellEdge mesh c e)).1, 0⟩) ∧
      pick (u (mesh.coords (mesh.topo.cell1DVertices (cellEdge mesh c e)).2)) h = fieldValue D free strong (h, ⟨0, (mesh.topo.cell1DVertices (cellEdge mesh c e)).2, 0⟩) := by
    rw [hends]
    split_ifs
    · exact ⟨hvert e he, hvert _ hmod⟩
    · exact ⟨hvert _ hmod, hvert e he⟩
  have : r = U (cellEdge mesh c e) := by
    refine nodes_unique hT hr d1 ?_ ?_ fun i t hi => ?_
    · rw [← hru 0 le_rfl zero_le_one, hp0, d2, hend.1]
    · rw [← hru 1 zero_le_one le_rfl, hp1, d3, hend.2]
    · have hti := hT.inside t (List.mem_of_getElem? hi)
      rw [← hru t hti.1 hti.2, d4 i t hi, hnode i t hi]
  rw [hru t t0 t1, this]

/-- The work of the field `F` along an edge of the mesh against a trace. -/
noncomputable def edgeWork (mesh : PlaneMesh ℝ) (F : MvPolynomial (Fin 2) ℝ × MvPolynomial (Fin 2) ℝ) (U : Nat → Polynomial ℝ) (E : Nat) : ℝ :=
  (clockwise (edgeVector mesh E)).1 * (∫ t in (0 : ℝ)..1, ev2 F.1 (edgePoint mesh E t) * (U E).eval t)
    + (clockwise (edgeVector mesh E)).2 * ∫ t in (0 : ℝ)..1, ev2 F.2 (edgePoint mesh E t) * (U E).eval t

theorem edge_turn (hM : IsPlaneMesh 1 mesh poly n len dir nrm) {c e : Nat} (hc : c < mesh.num2D) (he : e < n c) :
    clockwise (cellPoint mesh c ((e + 1) % n c) - cellPoint mesh c e) = sgn (dir c) e • clockwise (edgeVector mesh (cellEdge mesh c e)) := by
  unfold edgeVector sgn
  rw [hM.ends c hc e he]
  cases dir c e <;> simp [clockwise, cellPoint]

/-- The boundary terms of a cell in terms of the edges of the mesh. -/
theorem cell_flux (hM : IsPlaneMesh 1 mesh poly n len dir nrm) (hT : IsDfTables k triangle edge ts ws w ss vs v₀) {m c h : Nat} (hc : c < mesh.num2D)
    (hh : h < 2) (hE : ∀ e < n c, cellEdge mesh c e < mesh.num1D) {free strong : List ℝ} {u : ℝ × ℝ → ℝ × ℝ} {P : MvPolynomial (Fin 2) ℝ}
    (hu : EdgePolynomial k (n c) (cellPoint mesh c) fun p => pick (u p) h)
    (hv : IsVelocityDofs k m (poly c) (n c) (cellPoint mesh c) (dir c) ts u P (flowVelocity k mesh n D free strong c)) {U : Nat → Polynomial ℝ}
    (hU : IsTrace k mesh ts (fun r => fieldValue D free strong (h, r)) U) (F : MvPolynomial (Fin 2) ℝ × MvPolynomial (Fin 2) ℝ) :
    edgeFlux (n c) (cellPoint mesh c) F (fun p => pick (u p) h) = ∑ e ∈ Finset.range (n c), edgeWork mesh F U (cellEdge mesh c e) * sgn (dir c) e := by
  unfold edgeFlux
  refine Finset.sum_congr rfl fun e he => ?_
  have he := Finset.mem_range.1 he
  have hseg : ∀ z : MvPolynomial (Fin 2) ℝ, segInt (fun p => ev2 z p * pick (u p) h) (cellPoint mesh c e) (cellPoint mesh c ((e + 1) % n c))
      = ∫ t in (0 : ℝ)..1, ev2 z (edgePoint mesh (cellEdge mesh c e) t) * (U (cellEdge mesh c e)).eval t := by
    intro z
    have h1 : segInt (fun p => ev2 z p * pick (u p) h) (cellPoint mesh c e) (cellPoint mesh c ((e + 1) % n c))
        = segInt (fun p => ev2 z p * pick (u p) h) (polyEdge (n c) (cellPoint mesh c) (dir c e) e).1 (polyEdge (n c) (cellPoint mesh c) (dir c e) e).2 := by
      unfold polyEdge
      split_ifs
      · rfl
      · exact segInt_symm _ _ _
    rw [h1]
    unfold segInt
    refine intervalIntegral.integral_congr fun t ht => ?_
    rw [Set.uIcc_of_le zero_le_one] at ht
    dsimp only
    rw [edge_point hM hc he, velocity_on_edge hM hT hc he hh (hE e he) hu hv hU ht.1 ht.2]
  rw [hseg, hseg, edge_turn hM hc he, edgeWork]
  simp only [Prod.smul_fst, Prod.smul_snd, smul_eq_mul]
  ring

/-- The boundary terms of one component cancel the weak terms. -/
theorem flow_cancel (hM : IsPlaneMesh 1 mesh poly n len dir nrm) (hT : IsDfTables k triangle edge ts ws w ss vs v₀)
    (hs : IsDfSetup ref mesh boundary info D count) (hgauss : ExactOnSegment (2 * k) (gauss (2 * k)).points (gauss (2 * k)).weights) {h : Nat} (hh : h < 2)
    (F : MvPolynomial (Fin 2) ℝ × MvPolynomial (Fin 2) ℝ) (weak : Nat → ℝ × ℝ → ℝ)
    (hF : (∃ b ∈ (info h).bInfo 1, b.type = .weak) → F.1.totalDegree ≤ k ∧ F.2.totalDegree ≤ k)
    (hweak : ∀ c < mesh.num2D, ∀ e < n c, ∀ b, ((info h).bInfo 1)[cellEdge mesh c e]? = some b → b.type = .weak → ∀ t,
      weak b.marker (edgePoint mesh (cellEdge mesh c e) t)
        = -(ev2 F.1 (edgePoint mesh (cellEdge mesh c e) t) * (nrm c e).1 + ev2 F.2 (edgePoint mesh (cellEdge mesh c e) t) * (nrm c e).2))
    (hends : ∀ E, bTypeOf (info h) (1, E) = some .strong →
      bTypeOf (info h) (0, (mesh.topo.cell1DVertices E).1) = some .strong ∧ bTypeOf (info h) (0, (mesh.topo.cell1DVertices E).2) = some .strong)
    (hnone : ∀ E b, ((info h).bInfo 1)[E]? = some b → b.type ≠ .weak → b.type ≠ .strong → signedSum mesh n dir E = 0) {y : List ℝ} {m : Nat} {U : Nat → Polynomial ℝ}
    (hU : IsTrace k mesh ts (fun r => fieldValue D y (List.replicate m 0) (h, r)) U) :
    ((List.range mesh.num2D).map fun c => ∑ e ∈ Finset.range (n c), edgeWork mesh F U (cellEdge mesh c e) * sgn (dir c) e).sum
      = -((List.range mesh.num2D).map fun c => ∑ e ∈ Finset.range (n c),
          weakValue (info h) mesh len (quadSum (gauss (2 * k)).points (gauss (2 * k)).weights) weak U c e).sum := by
  classical
  have H := (df_quad hs).field h (by omega)
  have hEdge : ∀ c < mesh.num2D, ∀ e < n c, cellEdge mesh c e < mesh.num1D := fun c hc e he => H.edges c hc _ (List.mem_of_getElem? (cell_edge_mem hM hc he))
  set G' : Nat → ℝ := fun E => (((info h).bInfo 1)[E]?).elim 0 fun b => if b.type = .weak then 0 else edgeWork mesh F U E with hG'
  set σ : Nat → Nat → ℤ := fun c e => if dir c e then 1 else -1 with hσ
  have hsg : ∀ c e, sgn (dir c) e = (σ c e : ℝ) := by
    intro c e
    simp only [sgn, hσ]
    split_ifs <;> simp
  have hval : ∀ d E j, d ≤ 2 → bTypeOf (info h) (d, E) = some .strong → E < (mesh.topo.markers d).length → fieldValue D y (List.replicate m 0) (h, ⟨d, E, j⟩) = 0 := by
    intro d E j hd hb hE
    obtain ⟨x, b, hx, hb', hu, hl, ht⟩ := H.cell d hd E hE
    have hbt : b.type = .strong := by
      rw [bTypeOf, hb', Option.map_some, Option.some.injEq] at hb
      exact hb
    cases hj : lookup (D h) ⟨d, E, j⟩ with
    | none => simp only [fieldValue, valueOf, hj]
    | some a =>
      have := hj
      rw [Handler.lookup_cell hx] at this
      have := ht a (List.mem_of_getElem? this)
      rw [hbt] at this
      obtain ⟨t, i⟩ := a
      dsimp only at this
      subst this
      rw [fieldValue_strong (i := i) hj, replicate_getD]
  have hre := regroup (List.range mesh.num2D) n (cellEdge mesh) σ (mesh.topo.markers 1).length (fun c hc e he => hEdge c (List.mem_range.1 hc) e he) G'
  have hzero : ∀ E ∈ Finset.range (mesh.topo.markers 1).length, G' E * ((signedSum mesh n dir E : ℤ) : ℝ) = 0 := by
    intro E hE
    have hE := Finset.mem_range.1 hE
    obtain ⟨x, b, hx, hb, -, hl, ht⟩ := H.cell 1 (by norm_num) E hE
    simp only [hG', hb, Option.elim_some]
    split_ifs with hw
    · rw [zero_mul]
    · by_cases hst : b.type = .strong
      · have hbt : bTypeOf (info h) (1, E) = some .strong := by rw [bTypeOf, hb, Option.map_some, hst]
        obtain ⟨e1, e2⟩ := hends E hbt
        obtain ⟨d1, d2, d3, d4⟩ := hU E hE
        have hend := H.ends E hE
        have : U E = 0 := by
          refine nodes_unique hT d1 (by simp) ?_ ?_ fun i t hi => ?_
          · rw [Polynomial.eval_zero]; exact d2.trans (hval 0 _ _ (by omega) e1 hend.1)
          · rw [Polynomial.eval_zero]; exact d3.trans (hval 0 _ _ (by omega) e2 hend.2)
          · rw [Polynomial.eval_zero]; exact (d4 i t hi).trans (hval 1 _ _ (by omega) hbt hE)
        rw [edgeWork, this]
        simp
      · rw [hnone E b hb hw hst, Int.cast_zero, mul_zero]
  replace hre := hre.trans (Finset.sum_eq_zero hzero)
  rw [eq_neg_iff_add_eq_zero, ← List.sum_map_add, ← hre]
  congr 1
  refine List.map_congr_left fun c hc => ?_
  have hc := List.mem_range.1 hc
  rw [← Finset.sum_add_distrib]
  refine Finset.sum_congr rfl fun e he => ?_
  have he := Finset.mem_range.1 he
  obtain ⟨x, b, hx, hb, -, hl, ht⟩ := H.cell 1 (by norm_num) _ (hEdge c hc e he)
  have hpull : ∀ z : MvPolynomial (Fin 2) ℝ, ∃ q : Polynomial ℝ, q.natDegree ≤ z.totalDegree ∧ ∀ t, ev2 z (edgePoint mesh (cellEdge mesh c e) t) = q.eval t := by
    intro z
    obtain ⟨q, hq, hqe⟩ := poly1_pullback (mesh.coords (mesh.topo.cell1DVertices (cellEdge mesh c e)).1) (mesh.coords (mesh.topo.cell1DVertices (cellEdge mesh c e)).2) z
    exact ⟨q, hq, fun t => (hqe t).symm⟩
  by_cases hw : b.type = .weak
  · obtain ⟨f1, f2⟩ := hF ⟨b, List.mem_of_getElem? hb, hw⟩
    obtain ⟨q1, hq1, he1⟩ := hpull F.1
    obtain ⟨q2, hq2, he2⟩ := hpull F.2
    rw [C119_weak_integral (k := k) hgauss weak (hU _ (hEdge c hc e he)).1]
    · simp only [hG', weakValue, hb, Option.elim_some, if_pos hw, zero_mul]
      have hn := (hM.element c hc).normals e he
      rw [edge_turn hM hc he] at hn
      have n1 : |len c e| * (nrm c e).1 = sgn (dir c) e * (clockwise (edgeVector mesh (cellEdge mesh c e))).1 := congrArg Prod.fst hn
      have n2 : |len c e| * (nrm c e).2 = sgn (dir c) e * (clockwise (edgeVector mesh (cellEdge mesh c e))).2 := congrArg Prod.snd hn
      have hint : ∀ q : Polynomial ℝ, IntervalIntegrable (fun t => q.eval t * (U (cellEdge mesh c e)).eval t) volume 0 1 := fun q =>
        (q.continuous.mul (U (cellEdge mesh c e)).continuous).intervalIntegrable _ _
      have hI : (∫ t in (0 : ℝ)..1, weak b.marker (edgePoint mesh (cellEdge mesh c e) t) * (U (cellEdge mesh c e)).eval t)
          = -((nrm c e).1 * (∫ t in (0 : ℝ)..1, q1.eval t * (U (cellEdge mesh c e)).eval t) + (nrm c e).2 * ∫ t in (0 : ℝ)..1, q2.eval t * (U (cellEdge mesh c e)).eval t) := by
        rw [← intervalIntegral.integral_const_mul, ← intervalIntegral.integral_const_mul,
          ← intervalIntegral.integral_add ((hint q1).const_mul _) ((hint q2).const_mul _), ← intervalIntegral.integral_neg]
        refine intervalIntegral.integral_congr fun t _ => ?_
        rw [hweak c hc e he b hb hw t, he1, he2]
        ring
      rw [hI, edgeWork]
      simp only [he1, he2]
      linear_combination (∫ t in (0 : ℝ)..1, q1.eval t * (U (cellEdge mesh c e)).eval t) * (-n1) - (∫ t in (0 : ℝ)..1, q2.eval t * (U (cellEdge mesh c e)).eval t) * n2
    · intro b' hb' hw'
      obtain rfl : b = b' := by rw [hb] at hb'; exact Option.some.inj hb'
      refine ⟨-(q1 * Polynomial.C (nrm c e).1 + q2 * Polynomial.C (nrm c e).2), ?_, fun t => ?_⟩
      · rw [Polynomial.natDegree_neg]
        refine (Polynomial.natDegree_add_le _ _).trans (max_le ?_ ?_)
        · exact (Polynomial.natDegree_mul_C_le _ _).trans (hq1.trans f1)
        · exact (Polynomial.natDegree_mul_C_le _ _).trans (hq2.trans f2)
      · rw [hweak c hc e he b hb hw' t, he1, he2]
        simp
  · simp only [hG', weakValue, hb, Option.elim_some, if_neg hw, ← hsg, add_zero]

/-- The stabilizations vanish on the DOFs of vector polynomials. -/
theorem flow_stab_null (red : Bool) {m : Nat} {V : Nat → ℝ × ℝ} {len : Nat → ℝ} {dir : Nat → Bool} {nrm : Nat → ℝ × ℝ} {poly : VemPolygon ℝ} {s : DfSpace2D ℝ}
    (hE : IsElement poly m V len dir nrm) (hT : IsDfTables k triangle edge ts ws w ss vs v₀) (hsq : ∀ x, 0 ≤ x → sqrt x * sqrt x = x)
    (hlu : SolvesRegular lu) (hllt : SolvesPosDef llt) (harea : red = true → poly.measure = ∫ _p in unionOf poly.tris, (1 : ℝ)) (hpos : 0 < poly.measure)
    (href : dfRef2D red triangle edge k = .ok ref) (hcr : dfCreate2D sqrt lu llt ref poly = .ok s) {type : DfProjection} (ht : type = .piNabla ∨ type = .pi0k) {S : DMat ℝ}
    (hS : dfStabilization s type = .ok S) {q : MvPolynomial (Fin 2) ℝ × MvPolynomial (Fin 2) ℝ} (hq1 : q.1.totalDegree ≤ k)
    (hq2 : q.2.totalDegree ≤ k) (hred : red = true → (divPoly q).totalDegree = 0) {z : Nat → ℝ}
    (hz : IsVelocityDofs k (divDegree red k) poly m V dir ts (vectorPoly q) (divPoly q) z) (v : Nat → ℝ) :
    ∑ i ∈ Finset.range (numVelocityDofs k (divDegree red k) m), v i * apply S z i = 0 := by
  obtain ⟨r1, s1, hr1, hc1, h1, -⟩ := C114_stabilization (sqrt := sqrt) red hE hT hsq hlu hllt harea hpos
  obtain rfl : r1 = ref := Except.ok.inj (hr1.symm.trans href)
  obtain rfl : s1 = s := Except.ok.inj (hc1.symm.trans hcr)
  obtain ⟨Q, c, hQ⟩ : ∃ Q c, (type = .piNabla ∧ Q = s1.piNabla ∧ c = 1) ∨ (type = .pi0k ∧ Q = s1.pi0k ∧ c = poly.measure) := by
    rcases ht with h | h
    · exact ⟨_, _, Or.inl ⟨h, rfl, rfl⟩⟩
    · exact ⟨_, _, Or.inr ⟨h, rfl, rfl⟩⟩
  obtain ⟨S', hS', hrows, hcols, hsym, h⟩ := h1 type Q c hQ
  obtain rfl : S' = S := Except.ok.inj (hS'.symm.trans hS)
  rw [← hrows]
  have hap : ∀ x i, apply S' x i = ∑ j ∈ Finset.range S'.rows, S'.ent i j * x j := by
    intro x i
    rw [apply, hcols]
  have := psd_null (N := S'.rows) (S := S'.ent) hsym (fun x => by
    have := (h x).1
    simp only [hap] at this
    exact this) (y := z) (by
    have := (h z).2.2.1 q hq1 hq2 hred hz
    simp only [hap] at this
    exact this) v
  simp only [hap]
  exact this

/-- A unit vector. -/
theorem unit_getD {N i j : Nat} (hj : j < N) : ((List.range N).map fun a => if a = i then (1 : ℝ) else 0).getD j 0 = if j = i then 1 else 0 := by
  rw [List.getD_eq_getElem?_getD, List.getElem?_map, List.getElem?_range hj, Option.map_some, Option.getD_some]

/-- Vectors that hold a vector polynomial and the projections of a pressure solve the system. -/
theorem flow_patch (hM : IsDfMesh red k mesh poly n len dir nrm) (hT : IsDfTables k triangle edge ts ws w ss vs v₀) (hsq : ∀ x, 0 ≤ x → sqrt x * sqrt x = x)
    (hlu : SolvesRegular lu) (hllt : SolvesPosDef llt) (href : dfRef2D red triangle edge k = .ok ref)
    (hs : IsDfSetup ref mesh boundary info D count) (hgauss : ExactOnSegment (2 * k) (gauss (2 * k)).points (gauss (2 * k)).weights)
    {test : DfTest ℝ} {s : Nat → DfSpace2D ℝ} {p : Nat → DfPressure2D ℝ} {S S0 A : Nat → DMat ℝ} {b mean : Nat → List ℝ} {μ κ : Nat → ℝ}
    {P : BrinkmanProblem ℝ} (hB : BSystem red k mesh poly n len dir ts ws w ss vs v₀ sqrt lu llt ref info D count gauss test s p S S0 A b mean μ κ P)
    {q : MvPolynomial (Fin 2) ℝ × MvPolynomial (Fin 2) ℝ} (hq1 : q.1.totalDegree ≤ k) (hq2 : q.2.totalDegree ≤ k) (hred : red = true → (divPoly q).totalDegree = 0)
    {pr : MvPolynomial (Fin 2) ℝ} (hpr : pr.totalDegree ≤ k + 1) (hprw : (∃ h < 2, ∃ b ∈ (info h).bInfo 1, b.type = .weak) → pr.totalDegree ≤ k) {ν : ℝ}
    (hμ : ∀ x, test.viscosity x = ν)
    (hsrc : ∀ x, ∀ a : Fin 2, test.source x a = -(ν * ev2 (pderiv 0 (pderiv 0 (pick q a)) + pderiv 1 (pderiv 1 (pick q a))) x)
      + (∑ b ∈ Finset.range 2, test.inverseDiffusion x (a.val + 3 * b) * component (vectorPoly q x) b) + ev2 (pderiv a pr) x)
    (hdiv : ∀ x, test.divergence x = ev2 (divPoly q) x)
    (hweak : ∀ h < 2, ∀ c < mesh.num2D, ∀ e < n c, ∀ b, ((info h).bInfo 1)[cellEdge mesh c e]? = some b → b.type = .weak → ∀ t,
      test.weak b.marker (edgePoint mesh (cellEdge mesh c e) t) h
        = -(ev2 (stressPoly ν q pr h).1 (edgePoint mesh (cellEdge mesh c e) t) * (nrm c e).1 + ev2 (stressPoly ν q pr h).2 (edgePoint mesh (cellEdge mesh c e) t) * (nrm c e).2))
    (hends : ∀ h < 2, ∀ E, bTypeOf (info h) (1, E) = some .strong →
      bTypeOf (info h) (0, (mesh.topo.cell1DVertices E).1) = some .strong ∧ bTypeOf (info h) (0, (mesh.topo.cell1DVertices E).2) = some .strong)
    (hnone : ∀ h < 2, ∀ E b, ((info h).bInfo 1)[E]? = some b → b.type ≠ .weak → b.type ≠ .strong → signedSum mesh n dir E = 0)
    {x : List ℝ} (hx : x.length = count.totalDOFs)
    (hz : ∀ c < mesh.num2D, IsVelocityDofs k (divDegree red k) (poly c) (n c) (cellPoint mesh c) (dir c) ts (vectorPoly q) (divPoly q) (flowVelocity k mesh n D x P.dirichlet c))
    (hp : ∀ c < mesh.num2D, ∀ i < tri (divDegree red k + 1), quadLin (s c).internal.points (s c).internal.weights (basisPoly k (poly c).centroid (poly c).diameter i *
      (pr - combo k (poly c).centroid (poly c).diameter (tri (divDegree red k + 1)) (flowPressure D x P.dirichlet c))) = 0)
    (hl : count.totalBoundary = 0 → x.getD (fieldOffset D 4) 0 = 0)
    (hmean : count.totalBoundary = 0 → ((List.range mesh.num2D).map fun c => quadLin (s c).internal.points (s c).internal.weights pr).sum = 0)
    {i : Nat} (hi : i < count.totalDOFs) :
    ∑ j ∈ Finset.range x.length, entry P.globalMatrix i j * x.getD j 0 = ventry P.rightHandSide i := by
  have hm := divDegree_le red hT.two
  set y : List ℝ := (List.range count.totalDOFs).map fun a => if a = i then (1 : ℝ) else 0 with hy
  have hpickr : ∀ f : Nat → ℝ, ∑ a ∈ Finset.range count.totalDOFs, y.getD a 0 * f a = f i := by
    intro f
    rw [Finset.sum_eq_single i, hy, unit_getD hi, if_pos rfl, one_mul]
    · intro a ha hne
      rw [hy, unit_getD (Finset.mem_range.1 ha), if_neg hne, zero_mul]
    · intro h
      exact absurd (Finset.mem_range.2 hi) h
  choose U hU using fun h => exists_trace hT.toIsTables hT.distinct mesh (fun r => fieldValue D y (List.replicate P.dirichlet.length 0) (h, r))
  have hrow := flow_rows hM hT href hs hB x P.dirichlet y hx hB.dirichletLength
  have hrhs := flow_rhs hM hT href hB y P.dirichlet.length U fun h _ => hU h
  rw [hpickr] at hrow hrhs
  have hmult : (if count.totalBoundary = 0 then
            ((List.range mesh.num2D).map fun c => quadSum (s c).internal.points (s c).internal.weights
              (polyOf (divDegree red k) (poly c).centroid (poly c).diameter (flowPressure D y (List.replicate P.dirichlet.length 0) c))).sum * x.getD (fieldOffset D 4) 0
            + y.getD (fieldOffset D 4) 0 * ((List.range mesh.num2D).map fun c => quadSum (s c).internal.points (s c).internal.weights
              (polyOf (divDegree red k) (poly c).centroid (poly c).diameter (flowPressure D x P.dirichlet c))).sum else 0) = 0 := by
    split_ifs with h0
    · have : ((List.range mesh.num2D).map fun c => quadSum (s c).internal.points (s c).internal.weights
              (polyOf (divDegree red k) (poly c).centroid (poly c).diameter (flowPressure D x P.dirichlet c))).sum = 0 := by
        rw [← hmean h0]
        congr 1
        refine List.map_congr_left fun c hc => ?_
        have hc := List.mem_range.1 hc
        have h1 : quadSum (s c).internal.points (s c).internal.weights (polyOf (divDegree red k) (poly c).centroid (poly c).diameter (flowPressure D x P.dirichlet c))
          = quadLin (s c).internal.points (s c).internal.weights (combo k (poly c).centroid (poly c).diameter (tri (divDegree red k + 1)) (flowPressure D x P.dirichlet c)) :=
          quadSum_congr _ _ fun q _ => df_polyOf (k := k) (by omega) rfl _ q
        have h2 := hp c hc 0 (by rw [tri_succ]; omega)
        rw [basisPoly_zero, one_mul, map_sub, sub_eq_zero] at h2
        rw [h1, h2]
      rw [this, hl h0, mul_zero, mul_zero, add_zero]
    · rfl
  rw [hmult, add_zero] at hrow
  have hEdge : ∀ c < mesh.num2D, ∀ e < n c, cellEdge mesh c e < mesh.num1D := fun c hc e he =>
    ((df_quad hs).field 0 (by omega)).edges c hc _ (List.mem_of_getElem? (cell_edge_mem hM.plane hc he))
  have hcell : ∀ c ∈ List.range mesh.num2D,
      flowForm k (divDegree red k) test (poly c) (s c) (flowVelocity k mesh n D x P.dirichlet c) (flowVelocity k mesh n D y (List.replicate P.dirichlet.length 0) c)
            (flowPressure D x P.dirichlet c) (flowPressure D y (List.replicate P.dirichlet.length 0) c)
          + μ c * (∑ i ∈ Finset.range (numVelocityDofs k (divDegree red k) (n c)), flowVelocity k mesh n D y (List.replicate P.dirichlet.length 0) c i *
              apply (S c) (flowVelocity k mesh n D x P.dirichlet c) i)
          + κ c * (∑ i ∈ Finset.range (numVelocityDofs k (divDegree red k) (n c)), flowVelocity k mesh n D y (List.replicate P.dirichlet.length 0) c i *
              apply (S0 c) (flowVelocity k mesh n D x P.dirichlet c) i)
        = (quadSum (s c).internal.points (s c).internal.weights fun q =>
          test.source q 0 * polyOf k (poly c).centroid (poly c).diameter (apply (s c).pi0k.1 (flowVelocity k mesh n D y (List.replicate P.dirichlet.length 0) c)) q
          + test.source q 1 * polyOf k (poly c).centroid (poly c).diameter (apply (s c).pi0k.2 (flowVelocity k mesh n D y (List.replicate P.dirichlet.length 0) c)) q
          + test.divergence q * polyOf (divDegree red k) (poly c).centroid (poly c).diameter (flowPressure D y (List.replicate P.dirichlet.length 0) c) q)
        + (∑ e ∈ Finset.range (n c), edgeWork mesh (stressPoly ν q pr 0) (U 0) (cellEdge mesh c e) * sgn (dir c) e
          + ∑ e ∈ Finset.range (n c), edgeWork mesh (stressPoly ν q pr 1) (U 1) (cellEdge mesh c e) * sgn (dir c) e) := by
    intro c hc
    have hc := List.mem_range.1 hc
    have hE := hM.plane.element c hc
    obtain ⟨u, Pd, hreal⟩ := exists_real red hE (hM.simple c hc) hT hsq hlu hllt (hM.area c hc) href (hB.created c hc) (hB.space c hc)
      (flowVelocity k mesh n D y (List.replicate P.dirichlet.length 0) c)
    have hres := flow_residual red hE hT (hB.space c hc) hq1 hq2 hred (hz c hc) hpr (hp c hc) hμ hsrc hdiv hreal (flowPressure D y (List.replicate P.dirichlet.length 0) c)
    rw [cell_flux hM.plane hT hc (show 0 < 2 by omega) (hEdge c hc) (velocity_trace hreal.velocity 0) hreal.dofs (hU 0),
      cell_flux hM.plane hT hc (show 1 < 2 by omega) (hEdge c hc) (velocity_trace hreal.velocity 1) hreal.dofs (hU 1)] at hres
    rw [flow_stab_null red hE hT hsq hlu hllt (hM.area c hc) (hM.plane.measure c hc) href (hB.created c hc) (Or.inl rfl) (hB.cell c hc).stab hq1 hq2 hred (hz c hc),
      flow_stab_null red hE hT hsq hlu hllt (hM.area c hc) (hM.plane.measure c hc) href (hB.created c hc) (Or.inr rfl) (hB.cell c hc).stab0 hq1 hq2 hred (hz c hc)]
    linarith
  have hdeg : ∀ h < 2, (∃ b ∈ (info h).bInfo 1, b.type = .weak) → (stressPoly ν q pr h).1.totalDegree ≤ k ∧ (stressPoly ν q pr h).2.totalDegree ≤ k := by
    intro h hh hw
    have hd : pr.totalDegree ≤ k := hprw ⟨h, hh, hw⟩
    have hc : ∀ (z : MvPolynomial (Fin 2) ℝ) (d : Fin 2), z.totalDegree ≤ k → (C ν * pderiv d z).totalDegree ≤ k := by
      intro z d hz
      rw [← smul_eq_C_mul]
      exact (totalDegree_smul_le _ _).trans ((der_degree hz d).trans (by omega))
    unfold stressPoly
    split_ifs
    · exact ⟨(totalDegree_sub _ _).trans (max_le (hc _ _ hq1) hd), hc _ _ hq1⟩
    · exact ⟨hc _ _ hq2, (totalDegree_sub _ _).trans (max_le (hc _ _ hq2) hd)⟩
  have hcan : ∀ h < 2, _ := fun h hh => flow_cancel hM.plane hT hs hgauss hh (stressPoly ν q pr h) (fun m p => test.weak m p h) (hdeg h hh) (hweak h hh) (hends h hh) (hnone h hh) (hU h)
  rw [List.map_congr_left hcell, List.sum_map_add, List.sum_map_add, hcan 0 (by omega), hcan 1 (by omega)] at hrow
  have hsplit : ((List.range mesh.num2D).map fun c => ∑ h ∈ Finset.range 2, ∑ e ∈ Finset.range (n c),
          weakValue (info h) mesh len (quadSum (gauss (2 * k)).points (gauss (2 * k)).weights) (fun m p => test.weak m p h) (U h) c e).sum
      = ((List.range mesh.num2D).map fun c => ∑ e ∈ Finset.range (n c),
          weakValue (info 0) mesh len (quadSum (gauss (2 * k)).points (gauss (2 * k)).weights) (fun m p => test.weak m p 0) (U 0) c e).sum
      + ((List.range mesh.num2D).map fun c => ∑ e ∈ Finset.range (n c),
          weakValue (info 1) mesh len (quadSum (gauss (2 * k)).points (gauss (2 * k)).weights) (fun m p => test.weak m p 1) (U 1) c e).sum := by
    rw [← List.sum_map_add]
    simp only [Finset.sum_range_succ, Finset.sum_range_zero, zero_add]
  rw [hsplit] at hrhs
  linarith

/-- The pressure part of `HoldsFlow` in terms of the quadrature. -/
theorem pressure_moments (hT : IsDfTables k triangle edge ts ws w ss vs v₀) (red : Bool) {m : Nat} {V : Nat → ℝ × ℝ} {len : Nat → ℝ} {dir : Nat → Bool} {poly : VemPolygon ℝ}
    {s : DfSpace2D ℝ} (hs : DfSpaceOk k (divDegree red k) m V len dir ts ws w ss vs v₀ poly s) {pr : MvPolynomial (Fin 2) ℝ} (hpr : pr.totalDegree ≤ k + 1) (y : Nat → ℝ) :
    (∀ a b, a + b ≤ divDegree red k → ∫ p in unionOf poly.tris, scaledMonomial poly.centroid poly.diameter a b p
      * (eval ![p.1, p.2] pr - polyOf (divDegree red k) poly.centroid poly.diameter y p) = 0) ↔
    ∀ i < tri (divDegree red k + 1), quadLin s.internal.points s.internal.weights (basisPoly k poly.centroid poly.diameter i *
      (pr - combo k poly.centroid poly.diameter (tri (divDegree red k + 1)) y)) = 0 := by
  have hm := divDegree_le red hT.two
  have key : ∀ a b, a + b ≤ divDegree red k → quadLin s.internal.points s.internal.weights (basisPoly k poly.centroid poly.diameter (position a b) *
      (pr - combo k poly.centroid poly.diameter (tri (divDegree red k + 1)) y)) = ∫ p in unionOf poly.tris, scaledMonomial poly.centroid poly.diameter a b p
      * (eval ![p.1, p.2] pr - polyOf (divDegree red k) poly.centroid poly.diameter y p) := by
    intro a b hab
    have h1 := basisPoly_degree k poly.centroid poly.diameter (j := position a b) (m := divDegree red k) (by rw [num2_eq]; exact position_lt.2 (by omega)) (position_lt.2 (by omega))
    have h2 : (pr - combo k poly.centroid poly.diameter (tri (divDegree red k + 1)) y).totalDegree ≤ k + 1 :=
      (totalDegree_sub _ _).trans (max_le hpr ((combo_degree _ (by omega)).trans (by omega)))
    rw [hs.rules.integral _ ((totalDegree_mul _ _).trans (by omega))]
    refine integral_congr_ae (Filter.Eventually.of_forall fun p => ?_)
    dsimp only
    rw [df_polyOf (k := k) (by omega) rfl, ← ev2_basis_position k _ _ (show a + b ≤ k by omega)]
    simp only [ev2, map_mul, map_sub]
  constructor
  · intro h i hi
    obtain ⟨a, b, hab, rfl⟩ := exists_position hi
    rw [key a b hab, h a b hab]
  · intro h a b hab
    rw [← key a b hab, h _ (position_lt.2 (by omega))]

/-- The vector that holds a vector polynomial and the projections of a pressure. -/
theorem flow_exact (hM : IsDfMesh red k mesh poly n len dir nrm) (hT : IsDfTables k triangle edge ts ws w ss vs v₀) (href : dfRef2D red triangle edge k = .ok ref)
    (hs : IsDfSetup ref mesh boundary info D count)
    {test : DfTest ℝ} {s : Nat → DfSpace2D ℝ} {p : Nat → DfPressure2D ℝ} {S S0 A : Nat → DMat ℝ} {b mean : Nat → List ℝ} {μ κ : Nat → ℝ}
    {P : BrinkmanProblem ℝ} (hB : BSystem red k mesh poly n len dir ts ws w ss vs v₀ sqrt lu llt ref info D count gauss test s p S S0 A b mean μ κ P)
    {q : MvPolynomial (Fin 2) ℝ × MvPolynomial (Fin 2) ℝ} (hq1 : q.1.totalDegree ≤ k) (hq2 : q.2.totalDegree ≤ k)
    {pr : MvPolynomial (Fin 2) ℝ} (hpr : pr.totalDegree ≤ k + 1) {ν : ℝ} (hb : IsFlowBoundary test mesh n dir nrm info ν q pr) :
    ∃ x : List ℝ, x.length = count.totalDOFs ∧ x.getD (fieldOffset D 4) 0 = 0 ∧ HoldsFlow k (divDegree red k) mesh poly n dir ts D x P.dirichlet q pr := by
  have H := df_quad hs
  have hm := divDegree_le red hT.two
  have hk := hT.two
  obtain ⟨bd, hcount, -⟩ := df_count hT href hs
  have hN : fieldOffset D 4 ≤ count.totalDOFs := by rw [hcount]; exact Nat.le_add_right _ _
  have hz : ∀ c, ∃ z : Nat → ℝ, c < mesh.num2D → IsVelocityDofs k (divDegree red k) (poly c) (n c) (cellPoint mesh c) (dir c) ts (vectorPoly q) (divPoly q) z := by
    intro c
    by_cases hc : c < mesh.num2D
    swap
    · exact ⟨fun _ => 0, fun h => absurd h hc⟩
    have hE := hM.plane.element c hc
    obtain ⟨a0, h0⟩ := basisPoly_span k (poly c).centroid (poly c).diameter hE.diameter le_rfl q.1 hq1
    obtain ⟨a1, h1⟩ := basisPoly_span k (poly c).centroid (poly c).diameter hE.diameter le_rfl q.2 hq2
    have := dofs_apply hT hm (hB.space c hc) ![a0, a1]
    have e : (combo k (poly c).centroid (poly c).diameter (tri (k + 1)) (![a0, a1] 0), combo k (poly c).centroid (poly c).diameter (tri (k + 1)) (![a0, a1] 1)) = q :=
      Prod.ext h0.symm h1.symm
    rw [e] at this
    exact ⟨_, fun _ => this⟩
  choose z hz using hz
  have hy : ∀ c, ∃ y : Nat → ℝ, c < mesh.num2D → ∀ i < tri (divDegree red k + 1), quadLin (s c).internal.points (s c).internal.weights
      (basisPoly k (poly c).centroid (poly c).diameter i * (pr - combo k (poly c).centroid (poly c).diameter (tri (divDegree red k + 1)) y)) = 0 := by
    intro c
    by_cases hc : c < mesh.num2D
    swap
    · exact ⟨fun _ => 0, fun h => absurd h hc⟩
    obtain ⟨x, ⟨_, hx⟩, _⟩ := injective_solves (N := tri (divDegree red k + 1))
      (E := fun i l => quadLin (s c).internal.points (s c).internal.weights (basisPoly k (poly c).centroid (poly c).diameter i * basisPoly k (poly c).centroid (poly c).diameter l))
      (by
        intro x _ hx i hi
        exact gram_injective (hB.space c hc).discrete (hM.plane.element c hc).diameter (by omega) (fun l => x.getD l 0) hx i hi)
      (fun i => quadLin (s c).internal.points (s c).internal.weights (basisPoly k (poly c).centroid (poly c).diameter i * pr))
    refine ⟨fun l => x.getD l 0, fun _ i hi => ?_⟩
    rw [mul_sub, map_sub, quadLin_combo, hx i hi, sub_self]
  choose y hy using hy
  obtain ⟨x, hxl, hxv, hx0⟩ := flow_free H (fun a => if a.1 < 2 then component (vectorPoly q (dofPoint mesh ts a.2)) a.1
    else if a.1 = 2 then z a.2.cell (2 * (n a.2.cell + n a.2.cell * (k - 1)) + a.2.dof) else y a.2.cell a.2.dof) 0 hN
  refine ⟨x, hxl, ?_, fun c hc => ?_, fun c hc => ?_⟩
  · rcases Nat.lt_or_ge (fieldOffset D 4) count.totalDOFs with h | h
    · exact hx0 _ le_rfl h
    · rw [List.getD_eq_getElem?_getD, List.getElem?_eq_none (by omega)]; rfl
  · have hbord : ∀ h < 2, ∀ r, OnBorder mesh n c r → r.dof < dfNum ref h r.dim → fieldValue D x P.dirichlet (h, r) = component (vectorPoly q (dofPoint mesh ts r)) h := by
      intro h hh r hr hj
      obtain ⟨d, E, j⟩ := r
      have hd : d ≤ 1 ∧ E < (mesh.topo.markers d).length := by
        rcases hr with ⟨v, hv, h1, h2⟩ | ⟨e, he, h1, h2⟩
        · dsimp only at h1 h2
          subst h1 h2
          exact ⟨by omega, (H.field h (by omega)).verts c hc _ hv⟩
        · dsimp only at h1 h2
          subst h1 h2
          exact ⟨by omega, (H.field h (by omega)).edges c hc _ (List.mem_of_getElem? (cell_edge_mem hM.plane hc he))⟩
      obtain ⟨bb, yy, hbb, hl, ht, hty⟩ := flow_lookup H (show h < 4 by omega) (show d ≤ 2 by omega) hd.2 hj
      obtain ⟨t, i⟩ := yy
      dsimp only at ht hty
      rcases hty with rfl | rfl
      · rw [fieldValue_free hl, hxv h (by omega) _ _ hl]
        simp only [if_pos hh]
      · rw [fieldValue_strong hl]
        obtain ⟨m, hm', hval⟩ := hB.dirichlet c hc h hh _ i hr hl
        dsimp only at hm'
        rw [hbb] at hm'
        obtain rfl := Option.some.inj hm'
        have hst : bb.type = .strong := by
          cases hbt : bb.type <;> rw [hbt] at ht <;> simp_all [typeFor]
        rw [hval]
        rcases (show d = 0 ∨ d = 1 by omega) with rfl | rfl
        · exact hb.vertex h hh E bb hbb hst
        · exact hb.edge h hh E bb _ hbb hst
    have hzc := hz c hc
    have hb0 : ∀ j < n c + n c * (k - 1), ∀ h < 2, fieldValue D x P.dirichlet (h, borderRef k mesh n c j) = z c (h * (n c + n c * (k - 1)) + j) := by
      intro j hj h hh
      obtain ⟨h01, -⟩ := df_numbers hT href
      by_cases hjn : j < n c
      · rw [border_vertex hjn, hbord h hh _ (Or.inl ⟨_, List.mem_of_getElem? (cell_vertex_mem hM.plane hc hjn), rfl, rfl⟩) (by rw [(h01 h hh).1]; exact Nat.one_pos)]
        rcases (show h = 0 ∨ h = 1 by omega) with rfl | rfl
        · rw [zero_mul, zero_add, hzc.vertexFirst j hjn]; rfl
        · rw [one_mul, hzc.vertexSecond j hjn]; rfl
      · obtain ⟨e, i, he, hi, rfl⟩ : ∃ e i, e < n c ∧ i < k - 1 ∧ j = n c + e * (k - 1) + i := by
          have hpos : 0 < k - 1 := by omega
          refine ⟨(j - n c) / (k - 1), (j - n c) % (k - 1), Nat.div_lt_of_lt_mul (by rw [mul_comm]; omega), Nat.mod_lt _ hpos, ?_⟩
          have := Nat.div_add_mod' (j - n c) (k - 1)
          omega
        have hi' : i < ts.length := by rw [hT.nodes]; exact hi
        rw [border_node hi, hbord h hh _ (Or.inr ⟨e, he, rfl, rfl⟩) (by rw [(h01 h hh).2.1]; exact hi)]
        have hpt : dofPoint mesh ts ⟨1, cellEdge mesh c e, i⟩ = segPoint (polyEdge (n c) (cellPoint mesh c) (dir c e) e).1 (polyEdge (n c) (cellPoint mesh c) (dir c e) e).2 ts[i] := by
          rw [edge_point hM.plane hc he, dofPoint, if_neg (by simp)]
          simp [hi']
        rw [hpt]
        rcases (show h = 0 ∨ h = 1 by omega) with rfl | rfl
        · rw [zero_mul, zero_add, hzc.nodeFirst e he i _ (List.getElem?_eq_getElem hi')]; rfl
        · rw [one_mul, hzc.nodeSecond e he i _ (List.getElem?_eq_getElem hi')]; rfl
    refine velDofs_congr hk hT.nodes hzc fun j hj => ?_
    unfold flowVelocity
    split_ifs with h1 h2
    · rw [hb0 j h1 0 (by omega), zero_mul, zero_add]
    · rw [hb0 _ (by omega) 1 (by omega), one_mul, Nat.add_sub_cancel' (by omega)]
    · obtain ⟨i, hi⟩ := flow_interior hs le_rfl (by omega) hc (show j - 2 * (n c + n c * (k - 1)) < dfNum ref 2 2 by
        rw [(df_numbers hT href).2.1.2.2]
        unfold numVelocityDofs at hj
        omega)
      rw [fieldValue_free hi, hxv 2 (by omega) _ _ hi]
      simp only [if_neg (show ¬ 2 < 2 by omega), if_pos]
      rw [Nat.add_sub_cancel' (by omega)]
  · rw [pressure_moments hT red (hB.space c hc) hpr]
    suffices hcomb : combo k (poly c).centroid (poly c).diameter (tri (divDegree red k + 1)) (fun j => flowPressure D x P.dirichlet c j)
        = combo k (poly c).centroid (poly c).diameter (tri (divDegree red k + 1)) (y c) by
      intro i hi
      refine Eq.trans ?_ (hy c hc i hi)
      exact congrArg (fun g => quadLin (s c).internal.points (s c).internal.weights (basisPoly k (poly c).centroid (poly c).diameter i * (pr - g))) hcomb
    unfold combo
    refine Finset.sum_congr rfl fun j hj => ?_
    dsimp only
    have hj := Finset.mem_range.1 hj
    obtain ⟨g, hg⟩ := flow_interior hs (show 2 ≤ 3 by omega) (by omega) hc (show j < dfNum ref 3 2 by
      rw [(df_numbers hT href).2.2.2.2, tri_div]
      exact hj)
    have : flowPressure D x P.dirichlet c j = y c j := by
      unfold flowPressure
      rw [fieldValue_free hg, hxv 3 (by omega) _ _ hg]
      simp only [if_neg (show ¬ 3 < 2 by omega), if_neg (show ¬ 3 = 2 by omega)]
    rw [this]

end PolyDiM
