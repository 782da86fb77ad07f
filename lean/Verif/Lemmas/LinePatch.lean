import Verif.Lemmas.LineGlobal
import Verif.Lemmas.PlaneEnergy

/-!
# Lemmas: patch test and energy on a mesh of segments
-/

namespace PolyDiM

open Spec Polynomial

variable {k : Nat} {d : Fem1Data ℝ} {mid : List ℝ} {mesh : LineMesh ℝ} {g : LineGeometry ℝ} {info : MeshInfo} {data : DOFsData} {rule : Rule ℝ ℝ} {test : LineTest ℝ}

theorem segF_point (hm : IsLineMesh mesh g) {c : Nat} (hc : c < mesh.num1D) (t : ℝ) : segF (fem1Map (g.origin c) (g.tangent c) (g.length c)) t = linePoint mesh c t := by
  funext i
  show g.origin c i + g.tangent c i * t = _
  rw [hm.origin c hc, hm.tangent c hc, linePoint, mul_comm]

theorem linePoint_zero (mesh : LineMesh ℝ) (c : Nat) : linePoint mesh c 0 = mesh.coords (mesh.topo.cell1DVertices c).1 := by
  funext i
  simp [linePoint]

theorem linePoint_one (mesh : LineMesh ℝ) (c : Nat) : linePoint mesh c 1 = mesh.coords (mesh.topo.cell1DVertices c).2 := by
  funext i
  simp [linePoint]

theorem lineList_zero (k : Nat) (topo : Mesh) (c : Nat) (χ : GDOF → ℝ) : onList (entityList (lineNum k) topo 1 c) χ 0 = χ ⟨0, (topo.cell1DVertices c).1, 0⟩ := by
  rw [lineList_eq]; rfl

theorem lineList_one (k : Nat) (topo : Mesh) (c : Nat) (χ : GDOF → ℝ) : onList (entityList (lineNum k) topo 1 c) χ 1 = χ ⟨0, (topo.cell1DVertices c).2, 0⟩ := by
  rw [lineList_eq]; rfl

theorem lineList_inner {k j : Nat} (hj : j < k - 1) (topo : Mesh) (c : Nat) (χ : GDOF → ℝ) : onList (entityList (lineNum k) topo 1 c) χ (j + 2) = χ ⟨1, c, j⟩ := by
  rw [lineList_eq, onList]
  simp [hj]

/-- Nodal values of a function on one segment. -/
theorem DofHandler.nodal (H : DofHandler (lineNum k) 1 mesh.topo info data) (R : LineRef k d mid) {u : (Nat → ℝ) → ℝ} {free strong : List ℝ}
    (hu : ∀ r x, lookup data r = some x → valueOf data free strong r = u (lineDofPoint mesh d.positions r)) {c : Nat} (hc : c < mesh.num1D) {P : ℝ[X]}
    (hP : ∀ t, 0 ≤ t → t ≤ 1 → u (linePoint mesh c t) = P.eval t) {i : Nat} (hi : i < k + 1) :
    onList (entityList (lineNum k) mesh.topo 1 c) (valueOf data free strong) i = P.eval (d.positions.getD i 0) := by
  obtain ⟨e1, e2⟩ := H.ends hc
  rcases i with _ | _ | j
  · obtain ⟨x, b, hx, -⟩ := H.vertex e1
    rw [lineList_zero, hu _ x hx, R.positions]
    show u (mesh.coords _) = P.eval 0
    rw [← hP 0 le_rfl zero_le_one, linePoint_zero]
  · obtain ⟨x, b, hx, -⟩ := H.vertex e2
    rw [lineList_one, hu _ x hx, R.positions]
    show u (mesh.coords _) = P.eval 1
    rw [← hP 1 zero_le_one le_rfl, linePoint_one]
  · have hj : j < k - 1 := by omega
    obtain ⟨x, b, hx, -⟩ := H.lookup_some (d := 1) le_rfl hc (j := j) (by simpa [lineNum] using hj)
    rw [lineList_inner hj, hu _ x hx, lineDofPoint, if_neg (by simp)]
    dsimp only
    rw [hP _ (R.unit _).1 (R.unit _).2, add_comm]

theorem DofHandler.rowTest_vertex (H : DofHandler (lineNum k) 1 mesh.topo info data) {i v : Nat} (hv : lookup data ⟨0, v, 0⟩ = some ⟨.dof, i⟩) (w : Nat) :
    rowTest data i ⟨0, w, 0⟩ = if w = v then 1 else 0 := by
  rw [rowTest]
  by_cases h : w = v
  · rw [if_pos h, h, if_pos hv]
  · rw [if_neg h, if_neg]
    intro hw
    have := H.inj _ _ _ hw hv (by simp)
    simp only [GDOF.mk.injEq, true_and, and_true] at this
    exact h this

/-- The vectors of the DOFs of a function exist. -/
theorem DofHandler.dofs_exist (H : DofHandler (lineNum k) 1 mesh.topo info data) (val : GDOF → ℝ) :
    ∃ free : List ℝ, free.length = data.counters.dofs ∧ ∀ r i, lookup data r = some ⟨.dof, i⟩ → free.getD i 0 = val r := by
  have : Nonempty GDOF := ⟨⟨0, 0, 0⟩⟩
  choose! ref href using H.ontoFree
  refine ⟨(List.range data.counters.dofs).map fun i => val (ref i), by simp, fun r i hr => ?_⟩
  have hi := H.free r i hr
  rw [List.getD_eq_getElem?_getD, List.getElem?_map, List.getElem?_range hi, Option.map_some, Option.getD_some, H.inj _ _ _ (href i hi) hr (by simp)]

/-- The patch test on a mesh of segments. -/
theorem line_patch (hk : 1 ≤ k) (hsmall : k + 1 < 2 ^ 32) (R : LineRef k d mid) (hm : IsLineMesh mesh g) (H : DofHandler (lineNum k) 1 mesh.topo info data)
    (hno : ∀ c < mesh.num1D, typeAt info 1 c ≠ .strong) (hG : IsGauss k rule) {u : (Nat → ℝ) → ℝ} {P : Nat → ℝ[X]} {κ σ : Nat → ℝ}
    (hS : IsLineSolution k mesh info g.length test u P κ σ) :
    ∃ Pb, assembleLine info data d rule g mesh test = .ok Pb ∧ ∃ free, IsLineDofs mesh d.positions data u free Pb.dirichlet ∧
      ∀ i, ∑ j ∈ Finset.range data.counters.dofs, entry Pb.globalMatrix i j * free.getD j 0 = ventry Pb.rightHandSide i := by
  have hloc : ∀ c < mesh.num1D, ∃ s A b, lineSpace d rule g c = .ok s ∧ lineLocal s test = .ok (A, b) ∧ A.rows = k + 1 ∧ A.cols = k + 1 ∧ b.rows = k + 1 ∧
      ∀ x : Nat → ℝ, (∀ i < k + 1, x i = (P c).eval (d.positions.getD i 0)) → ∀ v : Nat → ℝ,
        ∑ i ∈ Finset.range (k + 1), v i * (∑ j ∈ Finset.range (k + 1), A.ent i j * x j - b.ent i 0)
          = κ c / g.length c * ((Polynomial.derivative (P c)).eval 1 * v 1 - (Polynomial.derivative (P c)).eval 0 * v 0) := by
    intro c hc
    refine R.local_residual hk hG g c (hm.pos c hc) test (hS.degree c hc) (κ := κ c) (σ := σ c) (fun t ht => ?_) (fun t ht => ?_) fun t ht => ?_
    · rw [segF_point hm hc]; exact hS.diffusion c hc t (hG.inside t ht).1 (hG.inside t ht).2
    · rw [segF_point hm hc]; exact hS.reaction c hc t (hG.inside t ht).1 (hG.inside t ht).2
    · rw [segF_point hm hc]; exact hS.equation c hc t (hG.inside t ht).1 (hG.inside t ht).2
  have : Nonempty (LineSpace ℝ) := ⟨⟨⟨[], []⟩, ⟨0, 0, fun _ _ => 0⟩, []⟩⟩
  have : Nonempty (DMat ℝ) := ⟨⟨0, 0, fun _ _ => 0⟩⟩
  choose! s A b hs hl hAr hAc hbr hres using hloc
  have hno' : ∀ c < mesh.num1D, ∀ b, (info.bInfo 1)[c]? = some b → b.type ≠ .strong := by
    intro c hc b hb h
    exact hno c hc (by rw [typeAt, hb]; exact h)
  obtain ⟨Pb, hPb, hdl, hdv, hmat, hrhs⟩ := line_assemble hk hsmall H hno' test hs hl fun c hc => ⟨hAr c hc, hAc c hc, hbr c hc⟩
  obtain ⟨free, hfl, hfv⟩ := H.dofs_exist fun r => u (lineDofPoint mesh d.positions r)
  have hdofs : IsLineDofs mesh d.positions data u free Pb.dirichlet := by
    refine ⟨hfl, hdl, fun r x hr => ?_⟩
    have hkn := H.known r x hr
    rw [valueOf, hr]
    obtain ⟨ty, i⟩ := x
    cases ty with
    | unknwon => exact absurd rfl hkn
    | dof => exact hfv r i hr
    | strong =>
      obtain ⟨h0, -, hlt, m, hbm, hv⟩ := hdv r i hr
      show Pb.dirichlet.getD i 0 = _
      rw [hv, hS.strong _ hlt m hbm, lineDofPoint, if_pos h0]
  refine ⟨Pb, hPb, free, hdofs, fun i => ?_⟩
  have h1 := hmat Pb.dirichlet hdl free hfl i
  have h2 := hrhs i
  rw [hfl] at h1
  have key : ((List.range mesh.num1D).map fun c => ∑ j ∈ Finset.range (k + 1), onList (entityList (lineNum k) mesh.topo 1 c) (rowTest data i) j *
        apply (A c) (onList (entityList (lineNum k) mesh.topo 1 c) (valueOf data free Pb.dirichlet)) j).sum
      = ((List.range mesh.num1D).map fun c => ∑ j ∈ Finset.range (k + 1), onList (entityList (lineNum k) mesh.topo 1 c) (rowTest data i) j * (b c).ent j 0
              + (rowTest data i ⟨0, (mesh.topo.cell1DVertices c).2, 0⟩ * weakValue info mesh test (mesh.topo.cell1DVertices c).2
                - rowTest data i ⟨0, (mesh.topo.cell1DVertices c).1, 0⟩ * weakValue info mesh test (mesh.topo.cell1DVertices c).1)).sum := by
    rw [range_sum, range_sum, ← sub_eq_zero, ← Finset.sum_sub_distrib]
    have hterm : ∀ c ∈ Finset.range mesh.num1D,
        (∑ j ∈ Finset.range (k + 1), onList (entityList (lineNum k) mesh.topo 1 c) (rowTest data i) j *
            apply (A c) (onList (entityList (lineNum k) mesh.topo 1 c) (valueOf data free Pb.dirichlet)) j)
          - (∑ j ∈ Finset.range (k + 1), onList (entityList (lineNum k) mesh.topo 1 c) (rowTest data i) j * (b c).ent j 0
              + (rowTest data i ⟨0, (mesh.topo.cell1DVertices c).2, 0⟩ * weakValue info mesh test (mesh.topo.cell1DVertices c).2
                - rowTest data i ⟨0, (mesh.topo.cell1DVertices c).1, 0⟩ * weakValue info mesh test (mesh.topo.cell1DVertices c).1))
        = rowTest data i ⟨0, (mesh.topo.cell1DVertices c).2, 0⟩ * (κ c / g.length c * (Polynomial.derivative (P c)).eval 1 - weakValue info mesh test (mesh.topo.cell1DVertices c).2)
          - rowTest data i ⟨0, (mesh.topo.cell1DVertices c).1, 0⟩ * (κ c / g.length c * (Polynomial.derivative (P c)).eval 0 - weakValue info mesh test (mesh.topo.cell1DVertices c).1) := by
      intro c hc
      have hc' := Finset.mem_range.1 hc
      have hr := hres c hc' _ (fun i hi => H.nodal R hdofs.values hc' (hS.value c hc') hi) (onList (entityList (lineNum k) mesh.topo 1 c) (rowTest data i))
      simp only [mul_sub, Finset.sum_sub_distrib] at hr
      rw [lineList_zero, lineList_one] at hr
      unfold apply
      rw [hAc c hc', ← sub_sub, hr]
      ring
    rw [Finset.sum_congr rfl hterm]
    by_cases hv : ∃ v, lookup data ⟨0, v, 0⟩ = some ⟨.dof, i⟩
    · obtain ⟨v, hv⟩ := hv
      have hlt : v < mesh.num0D := (H.range _ _ hv).2.1
      obtain ⟨x, bi, hx, -, hbi, hbt, htf⟩ := H.vertex hlt
      obtain rfl : x = ⟨.dof, i⟩ := Option.some.inj (hx.symm.trans hv)
      simp only [H.rowTest_vertex hv]
      by_cases hw : bi.type = .weak
      · refine Finset.sum_eq_zero fun c hc => ?_
        have hc' := Finset.mem_range.1 hc
        obtain ⟨ty, m⟩ := bi
        obtain rfl : ty = .weak := hw
        have e2 : (if (mesh.topo.cell1DVertices c).2 = v then (1 : ℝ) else 0) * (κ c / g.length c * (Polynomial.derivative (P c)).eval 1
            - weakValue info mesh test (mesh.topo.cell1DVertices c).2) = 0 := by
          split_ifs with h
          · rw [← h] at hbi
            rw [weakValue, hbi]
            simp only [if_true]
            rw [hS.weakSecond c hc' m hbi, sub_self, mul_zero]
          · rw [zero_mul]
        have e1 : (if (mesh.topo.cell1DVertices c).1 = v then (1 : ℝ) else 0) * (κ c / g.length c * (Polynomial.derivative (P c)).eval 0
            - weakValue info mesh test (mesh.topo.cell1DVertices c).1) = 0 := by
          split_ifs with h
          · rw [← h] at hbi
            rw [weakValue, hbi]
            simp only [if_true]
            rw [hS.weakFirst c hc' m hbi, sub_self, mul_zero]
          · rw [zero_mul]
        rw [e2, e1, sub_zero]
      · have hty : typeAt info 0 v = bi.type := by rw [typeAt, hbi]; rfl
        have hst : bi.type ≠ .strong := by
          intro h
          rw [h] at htf
          exact absurd htf (by simp [typeFor])
        refine Eq.trans (Finset.sum_congr rfl fun c hc => ?_) (hS.balance v hlt (by rw [hty]; exact hst) (by rw [hty]; exact hw))
        have hwv : weakValue info mesh test v = 0 := by rw [weakValue, hbi]; exact if_neg hw
        have e2 : (if (mesh.topo.cell1DVertices c).2 = v then (1 : ℝ) else 0) * (κ c / g.length c * (Polynomial.derivative (P c)).eval 1
            - weakValue info mesh test (mesh.topo.cell1DVertices c).2) = κ c / g.length c * (if (mesh.topo.cell1DVertices c).2 = v then (Polynomial.derivative (P c)).eval 1 else 0) := by
          split_ifs with h
          · rw [h, hwv]; ring
          · ring
        have e1 : (if (mesh.topo.cell1DVertices c).1 = v then (1 : ℝ) else 0) * (κ c / g.length c * (Polynomial.derivative (P c)).eval 0
            - weakValue info mesh test (mesh.topo.cell1DVertices c).1) = κ c / g.length c * (if (mesh.topo.cell1DVertices c).1 = v then (Polynomial.derivative (P c)).eval 0 else 0) := by
          split_ifs with h
          · rw [h, hwv]; ring
          · ring
        rw [e2, e1, mul_sub]
    · push Not at hv
      refine Finset.sum_eq_zero fun c _ => ?_
      rw [rowTest, rowTest, if_neg (hv _), if_neg (hv _)]
      ring
  rw [key, ← h2] at h1
  linarith

theorem DofHandler.row_sum (H : DofHandler (lineNum k) 1 mesh.topo info data) {x : List ℝ} (hx : x.length = data.counters.dofs) {r : GDOF} {y : DOF} (hr : lookup data r = some y) :
    ∑ i ∈ Finset.range data.counters.dofs, x.getD i 0 * rowTest data i r = valueOf data x (List.replicate data.counters.strongs 0) r := by
  have hkn := H.known r y hr
  rw [valueOf, hr]
  obtain ⟨ty, i⟩ := y
  cases ty with
  | unknwon => exact absurd rfl hkn
  | dof =>
    show _ = x.getD i 0
    rw [Finset.sum_eq_single i]
    · rw [rowTest, if_pos hr, mul_one]
    · intro j _ hji
      rw [rowTest, hr, if_neg (by simpa using fun h => hji h.symm), mul_zero]
    · intro h
      exact absurd (Finset.mem_range.2 (H.free r i hr)) h
  | strong =>
    have : (List.replicate data.counters.strongs (0 : ℝ)).getD i 0 = 0 := by
      rw [List.getD_eq_getElem?_getD]
      cases h : (List.replicate data.counters.strongs (0 : ℝ))[i]? with
      | none => rfl
      | some z => exact List.eq_of_mem_replicate (List.mem_of_getElem? h)
    show _ = (List.replicate data.counters.strongs (0 : ℝ)).getD i 0
    rw [this]
    refine Finset.sum_eq_zero fun j _ => ?_
    rw [rowTest, hr, if_neg (by simp), mul_zero]

/-- The system has exactly one solution. -/
theorem line_unique (hk : 1 ≤ k) (hsmall : k + 1 < 2 ^ 32) (R : LineRef k d mid) (hm : IsLineMesh mesh g) (H : DofHandler (lineNum k) 1 mesh.topo info data)
    (hno : ∀ c < mesh.num1D, typeAt info 1 c ≠ .strong) (hG : IsGauss k rule) (hw : ∀ w ∈ rule.weights, 0 ≤ w)
    (hκ : ∀ c < mesh.num1D, ∀ t, 0 < t → t < 1 → 0 < test.diffusion (linePoint mesh c t)) (hσ : ∀ c < mesh.num1D, ∀ t, 0 < t → t < 1 → 0 ≤ test.reaction (linePoint mesh c t))
    (hfix : LineFixed mesh info test) :
    ∃ Pb, assembleLine info data d rule g mesh test = .ok Pb ∧ ∀ b : Nat → ℝ, ∃! x : List ℝ, x.length = data.counters.dofs ∧
      ∀ i < data.counters.dofs, ∑ j ∈ Finset.range data.counters.dofs, entry Pb.globalMatrix i j * x.getD j 0 = b i := by
  have hloc : ∀ c < mesh.num1D, ∃ s A b, lineSpace d rule g c = .ok s ∧ lineLocal s test = .ok (A, b) ∧ A.rows = k + 1 ∧ A.cols = k + 1 ∧ b.rows = k + 1 ∧
      ∀ v : Nat → ℝ, 0 ≤ ∑ i ∈ Finset.range (k + 1), v i * ∑ j ∈ Finset.range (k + 1), A.ent i j * v j ∧
        (∑ i ∈ Finset.range (k + 1), v i * ∑ j ∈ Finset.range (k + 1), A.ent i j * v j = 0 →
          (∀ i < k + 1, v i = v 0) ∧ ((∀ t ∈ rule.points, 0 < test.reaction (segF (fem1Map (g.origin c) (g.tangent c) (g.length c)) t)) → v 0 = 0)) := by
    intro c hc
    refine R.local_energy hk hG hw g c (hm.pos c hc) test (fun t ht => ?_) fun t ht => ?_
    · rw [segF_point hm hc]; exact hκ c hc t (hG.inside t ht).1 (hG.inside t ht).2
    · rw [segF_point hm hc]; exact hσ c hc t (hG.inside t ht).1 (hG.inside t ht).2
  have : Nonempty (LineSpace ℝ) := ⟨⟨⟨[], []⟩, ⟨0, 0, fun _ _ => 0⟩, []⟩⟩
  have : Nonempty (DMat ℝ) := ⟨⟨0, 0, fun _ _ => 0⟩⟩
  choose! s A b hs hl hAr hAc hbr hen using hloc
  have hno' : ∀ c < mesh.num1D, ∀ b, (info.bInfo 1)[c]? = some b → b.type ≠ .strong := by
    intro c hc b hb h
    exact hno c hc (by rw [typeAt, hb]; exact h)
  obtain ⟨Pb, hPb, hdl, -, hmat, -⟩ := line_assemble hk hsmall H hno' test hs hl fun c hc => ⟨hAr c hc, hAc c hc, hbr c hc⟩
  refine ⟨Pb, hPb, fun b => definite_solves (fun x hx h0 => ?_) b⟩
  set Z : GDOF → ℝ := valueOf data x (List.replicate data.counters.strongs 0) with hZ
  have hsum : ∑ i ∈ Finset.range data.counters.dofs, x.getD i 0 * ∑ j ∈ Finset.range data.counters.dofs, entry Pb.globalMatrix i j * x.getD j 0
      = ∑ c ∈ Finset.range mesh.num1D, ∑ i ∈ Finset.range (k + 1), onList (entityList (lineNum k) mesh.topo 1 c) Z i *
          ∑ j ∈ Finset.range (k + 1), (A c).ent i j * onList (entityList (lineNum k) mesh.topo 1 c) Z j := by
    have hrow : ∀ i, ∑ j ∈ Finset.range data.counters.dofs, entry Pb.globalMatrix i j * x.getD j 0
        = ∑ c ∈ Finset.range mesh.num1D, ∑ j ∈ Finset.range (k + 1), onList (entityList (lineNum k) mesh.topo 1 c) (rowTest data i) j *
              apply (A c) (onList (entityList (lineNum k) mesh.topo 1 c) Z) j := by
      intro i
      have h1 := hmat (List.replicate data.counters.strongs 0) (by simp) x hx i
      rw [range_sum, hx] at h1
      rw [← h1]
      have : ∑ j ∈ Finset.range (List.replicate data.counters.strongs (0 : ℝ)).length, entry Pb.dirichletMatrix i j * (List.replicate data.counters.strongs (0 : ℝ)).getD j 0 = 0 := by
        refine Finset.sum_eq_zero fun j hj => ?_
        rw [List.length_replicate, Finset.mem_range] at hj
        simp [List.getD_eq_getElem?_getD, hj]
      rw [this, add_zero]
    simp only [hrow, Finset.mul_sum]
    rw [Finset.sum_comm]
    refine Finset.sum_congr rfl fun c hc => ?_
    have hc' := Finset.mem_range.1 hc
    rw [Finset.sum_comm]
    refine Finset.sum_congr rfl fun j hj => ?_
    have hj' : j < (entityList (lineNum k) mesh.topo 1 c).length := by rw [lineList_length hk]; exact Finset.mem_range.1 hj
    obtain ⟨y, hy, -⟩ := H.lookup_list hc' (List.getElem_mem hj')
    have e1 : onList (entityList (lineNum k) mesh.topo 1 c) Z j = ∑ i ∈ Finset.range data.counters.dofs, x.getD i 0 * onList (entityList (lineNum k) mesh.topo 1 c) (rowTest data i) j := by
      simp only [onList, List.getElem?_eq_getElem hj', Option.elim_some]
      rw [H.row_sum hx hy]
    rw [← Finset.mul_sum, e1, Finset.sum_mul]
    refine Finset.sum_congr rfl fun i _ => ?_
    rw [apply, hAc c hc']
    ring
  rw [hsum] at h0
  have hzero := (Finset.sum_eq_zero_iff_of_nonneg fun c hc => (hen c (Finset.mem_range.1 hc) _).1).1 h0
  have hconst : ∀ c < mesh.num1D, (∀ i < k + 1, onList (entityList (lineNum k) mesh.topo 1 c) Z i = Z ⟨0, (mesh.topo.cell1DVertices c).1, 0⟩) ∧
      ((∀ t, 0 < t → t < 1 → 0 < test.reaction (linePoint mesh c t)) → Z ⟨0, (mesh.topo.cell1DVertices c).1, 0⟩ = 0) := by
    intro c hc
    obtain ⟨h1, h2⟩ := (hen c hc (onList (entityList (lineNum k) mesh.topo 1 c) Z)).2 (hzero c (Finset.mem_range.2 hc))
    rw [lineList_zero] at h1 h2
    exact ⟨h1, fun hr => h2 fun t ht => by rw [segF_point hm hc]; exact hr t (hG.inside t ht).1 (hG.inside t ht).2⟩
  have hends : ∀ c < mesh.num1D, Z ⟨0, (mesh.topo.cell1DVertices c).2, 0⟩ = Z ⟨0, (mesh.topo.cell1DVertices c).1, 0⟩ := by
    intro c hc
    have := (hconst c hc).1 1 (by omega)
    rwa [lineList_one] at this
  have hstep : ∀ v w, Relation.ReflTransGen (LineStep mesh) v w → Z ⟨0, v, 0⟩ = Z ⟨0, w, 0⟩ := by
    intro v w h
    induction h with
    | refl => rfl
    | tail _ hbc ih =>
      obtain ⟨c, hc, h | h⟩ := hbc
      · have := hends c hc
        rw [h] at this
        rw [ih, this]
      · have := hends c hc
        rw [h] at this
        rw [ih, this]
  have hvert : ∀ v < mesh.num0D, Z ⟨0, v, 0⟩ = 0 := by
    intro v hv
    obtain ⟨w, hvw, hfx⟩ := hfix v hv
    rw [hstep v w hvw]
    rcases hfx with hst | ⟨c, hc, hcw, hr⟩
    · cases hlk : lookup data ⟨0, w, 0⟩ with
      | none => rw [hZ, valueOf, hlk]
      | some y =>
        have hw' : w < mesh.num0D := (H.range _ _ hlk).2.1
        obtain ⟨x', b', hx', -, hb', -, ht'⟩ := H.vertex hw'
        have hy : y.type = .strong := by
          rw [← Option.some.inj (hx'.symm.trans hlk), ht']
          rw [typeAt, hb'] at hst
          have : b'.type = .strong := hst
          rw [this]
          rfl
        rw [hZ, ← H.row_sum hx hlk]
        refine Finset.sum_eq_zero fun i _ => ?_
        rw [rowTest, hlk, if_neg, mul_zero]
        intro h
        rw [Option.some.inj h] at hy
        exact absurd hy (by simp)
    · have h0 := (hconst c hc).2 hr
      rcases hcw with h | h
      · rw [← h, h0]
      · rw [← h, hends c hc, h0]
  intro i hi
  obtain ⟨r, hr⟩ := H.ontoFree i hi
  have hval : Z r = x.getD i 0 := by rw [hZ, valueOf, hr]
  rw [← hval]
  obtain ⟨h1, h2, h3⟩ := H.range r _ hr
  obtain ⟨e, c, j⟩ := r
  rcases Nat.lt_or_ge e 1 with he | he
  · obtain rfl : e = 0 := by omega
    have h3 : j < 1 := h3
    obtain rfl : j = 0 := by omega
    exact hvert c h2
  · obtain rfl : e = 1 := le_antisymm h1 he
    have h3 : j < k - 1 := h3
    have h2 : c < mesh.num1D := h2
    have := (hconst c h2).1 (j + 2) (by omega)
    rw [lineList_inner h3] at this
    rw [this]
    exact hvert _ (H.ends h2).1

end PolyDiM
