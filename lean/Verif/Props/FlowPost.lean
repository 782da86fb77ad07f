import Verif.Model.FlowPost
import Verif.Spec.FlowPost
import Verif.Props.NavierStokesAssembly
import Verif.Props.ElasticPost2D
import Verif.Lemmas.RT2D

/-!
# C178: the errors reported by the Navier-Stokes example
-/

namespace PolyDiM

open Spec

/-- The tables of the basis functions on one cell: the derivatives of the fields `φ`, the functions `ψ` of the pressure, the points and weights of the quadrature. -/
structure FlowTables (t : FlowSpace ℝ) (Q M P : Nat) (x : Nat → ℝ × ℝ) (w : Nat → ℝ) (φ : Nat → PointField ℝ) (ψ : Nat → Nat → ℝ) : Prop where
  ders : t.ders = vecOf 4 fun d => ⟨Q, M, fun q J => (φ J).grad (d / 2) (d % 2) q⟩
  pressure : t.pressure = ⟨Q, P, fun q j => ψ j q⟩
  points : t.points = vecOf Q x
  weights : t.weights = vecOf Q w

theorem flow_mul (Q M : Nat) (B : Nat → Nat → ℝ) {y : List ℝ} (hl : y.length = M) :
    ∃ u, DMat.mul ⟨Q, M, B⟩ (.col y) = .ok u ∧ u.toList = vecOf Q fun q => ∑ J ∈ Finset.range M, B q J * y.getD J 0 :=
  ⟨_, DMat.mul_ok _ _ hl.symm, rfl⟩

theorem flow_points {α β : Type} (Q : Nat) (x : Nat → α) (f : α → β) : (vecOf Q x).map f = vecOf Q fun q => f (x q) := by
  simp [vecOf]

theorem flowSquares_ok {Q M : Nat} {φ : Nat → PointField ℝ} {y : List ℝ} (hl : y.length = M) (g : Nat → Nat → List ℝ → Except Fault (List ℝ)) (G : Nat → Nat → Nat → ℝ)
    (hg : ∀ a < 2, ∀ b < 2, g a b (vecOf Q ((combined M φ fun j => y.getD j 0).grad a b)) = .ok (vecOf Q (G a b))) :
    flowSquares (vecOf 4 fun d => ⟨Q, M, fun q J => (φ J).grad (d / 2) (d % 2) q⟩) y (List.replicate Q 0) g = .ok (vecOf Q fun q => gradSquare fun a b => G a b q) := by
  have hstep : ∀ a < 2, ∀ b < 2, ∀ s : Nat → ℝ, (do
      let D ← unchecked (vecOf 4 fun d => (⟨Q, M, fun q J => (φ J).grad (d / 2) (d % 2) q⟩ : DMat ℝ)) (2 * a + b)
      let u ← D.mul (.col y)
      let e ← g a b u.toList
      addSquares (vecOf Q s) e) = .ok (vecOf Q fun q => s q + G a b q * G a b q) := by
    intro a ha b hb s
    have h1 : unchecked (vecOf 4 fun d => (⟨Q, M, fun q J => (φ J).grad (d / 2) (d % 2) q⟩ : DMat ℝ)) (2 * a + b) = .ok ⟨Q, M, fun q J => (φ J).grad a b q⟩ := by
      refine (unchecked_ok_iff _ _ _).2 ?_
      rw [vecOf, List.getElem?_map, List.getElem?_range (by omega), Option.map_some, show (2 * a + b) / 2 = a by omega, show (2 * a + b) % 2 = b by omega]
    obtain ⟨u, hu, hu'⟩ := flow_mul Q M (fun q J => (φ J).grad a b q) hl
    rw [h1, except_ok_bind, hu, except_ok_bind, hu']
    have h2 := hg a ha b hb
    unfold combined at h2
    dsimp only at h2
    rw [h2, except_ok_bind, addSquares_ok]
  have hz : List.replicate Q (0 : ℝ) = vecOf Q fun _ => 0 := by simp [vecOf]
  have r2 : List.range 2 = [0, 1] := rfl
  unfold flowSquares
  rw [hz]
  simp only [r2, List.foldlM_cons, List.foldlM_nil]
  rw [hstep 0 (by norm_num) 0 (by norm_num), except_ok_bind, hstep 0 (by norm_num) 1 (by norm_num), except_ok_bind]
  simp only [pure_bind]
  rw [hstep 1 (by norm_num) 0 (by norm_num), except_ok_bind, hstep 1 (by norm_num) 1 (by norm_num), except_ok_bind]
  simp only [pure_bind]
  refine congrArg Except.ok (congrArg (vecOf Q) ?_)
  funext q
  simp only [gradSquare, Finset.sum_range_succ, Finset.sum_range_zero]
  ring

/-- One cell, for given local DOFs. -/
theorem flowErrors_ok {t : FlowSpace ℝ} {Q M P : Nat} {x : Nat → ℝ × ℝ} {w : Nat → ℝ} {φ : Nat → PointField ℝ} {ψ : Nat → Nat → ℝ} (hT : FlowTables t Q M P x w φ ψ)
    (exact : FlowExact ℝ) {y z : List ℝ} (hy : y.length = M) (hz : z.length = P) :
    flowErrors t exact y z = .ok ⟨∑ q ∈ Finset.range Q, w q * (∑ j ∈ Finset.range P, ψ j q * z.getD j 0 - exact.pressure (x q)) ^ 2,
      ∑ q ∈ Finset.range Q, w q * (∑ j ∈ Finset.range P, ψ j q * z.getD j 0) ^ 2,
      ∑ q ∈ Finset.range Q, w q * gradSquare fun a b => (combined M φ fun j => y.getD j 0).grad a b q - exact.derivative (x q) (3 * a + b),
      ∑ q ∈ Finset.range Q, w q * gradSquare fun a b => (combined M φ fun j => y.getD j 0).grad a b q⟩ := by
  obtain ⟨p, hp, hp'⟩ := flow_mul Q P (fun q j => ψ j q) hz
  unfold flowErrors
  rw [hT.pressure, hT.points, hT.weights, hT.ders, hp, except_ok_bind, hp', flow_points, minusList_ok, except_ok_bind, flow_points, dotWeights_ok, except_ok_bind, flow_points, dotWeights_ok,
    except_ok_bind]
  dsimp only
  rw [vecOf_length, flowSquares_ok hy _ (fun a b q => (combined M φ fun j => y.getD j 0).grad a b q - exact.derivative (x q) (3 * a + b))
      (fun a _ b _ => by rw [flow_points, minusList_ok]), except_ok_bind,
    flowSquares_ok hy _ (fun a b q => (combined M φ fun j => y.getD j 0).grad a b q) (fun a _ b _ => rfl), except_ok_bind, dotWeights_ok, except_ok_bind, dotWeights_ok, except_ok_bind]
  simp only [pow_two]

variable {ref : DfRef2D ℝ} {mesh : PlaneMesh ℝ} {boundary : Nat → Nat → Option BInfo} {info : Nat → MeshInfo} {D : Nat → DOFsData} {count : CountData}
  {Q : Nat → Nat} {x : Nat → Nat → ℝ × ℝ} {w : Nat → Nat → ℝ} {φ : Nat → Nat → PointField ℝ} {ψ : Nat → Nat → Nat → ℝ}

/-- The local DOFs of a cell are the coefficients of the discrete flow that the solution stands for. -/
theorem flowLocal_ok (hs : IsDfSetup ref mesh boundary info D count) {c : Nat} (hc : c < mesh.num2D) (hsmall : (quadList (dfNum ref) mesh.topo c).length < 2 ^ 32)
    {g : List ℝ} (hg : g.length = count.totalStrong) {u : List ℝ} (hu : u.length = count.totalDOFs) {v : Nat → ℝ}
    (hv : v = withStrong count.totalDOFs (fun j => u.getD j 0) fun j => g.getD j 0) :
    ∃ s p, flowLocal ((List.range 4).map D) count u g c = .ok (s, p) ∧ s.length = (speedRefs D c).length ∧ p.length = (cellList (D 3) 2 c).length ∧
      (∀ φ, (combined (speedRefs D c).length φ fun j => s.getD j 0) = speedOn D count.totalDOFs φ c v) ∧
      ∀ (ψ : Nat → Nat → ℝ) (q : Nat), ∑ j ∈ Finset.range (cellList (D 3) 2 c).length, ψ j q * p.getD j 0 = pressureOn D count.totalDOFs ψ c v q := by
  have H := df_quad hs
  obtain ⟨h1, h2, h3, h4⟩ := setup_count hs
  obtain ⟨hlen, hpre⟩ := speedRefs_prefix H hc
  obtain ⟨y, hy, hyl, hyv⟩ := H.local_values (c := c) hc (free := u) (strong := g) (by omega) (by omega)
  have hl : ∀ h < 4, cellList (D h) 2 c = fieldList (dfNum ref h) mesh.topo c := fun h hh => (H.field h hh).list c hc
  have hl3 := hl 3 (by norm_num)
  have hq : quadList (dfNum ref) mesh.topo c = speedRefs D c ++ (cellList (D 3) 2 c).map fun r => (3, r) := by
    have r4 : List.range 4 = [0, 1, 2, 3] := rfl
    have r3 : List.range 3 = [0, 1, 2] := rfl
    simp [quadList, speedRefs, r4, r3, hl 0, hl 1, hl 2, hl 3]
  set M := (speedRefs D c).length with hM
  set P := (cellList (D 3) 2 c).length with hP
  have htot : (quadList (dfNum ref) mesh.topo c).length = M + P := by rw [hq, List.length_append, List.length_map]
  have hval : ∀ j, y.getD j 0 = ((quadList (dfNum ref) mesh.topo c)[j]?).elim 0 (globalValue D count.totalDOFs v) := by
    intro j
    rw [hyv, onRefs]
    cases hx : (quadList (dfNum ref) mesh.topo c)[j]? with
    | none => rfl
    | some r => rw [Option.elim_some, Option.elim_some, hv, globalValue_with H h1 u g (H.mem_quad (List.mem_of_getElem? hx)).1]
  have hu32 : u32 ((quadList (dfNum ref) mesh.topo c).length + 2 ^ 32 - P) = M := by
    rw [htot] at hsmall ⊢
    unfold u32
    omega
  refine ⟨vecOf M fun t => y.getD (0 + t) 0, vecOf P fun t => y.getD (M + t) 0, ?_, vecOf_length _ _, vecOf_length _ _, fun φ => ?_, fun ψ q => ?_⟩
  · unfold flowLocal
    rw [H.local_count hc hsmall, except_ok_bind, show unchecked ((List.range 4).map D) 3 = .ok (D 3) from rfl, except_ok_bind, H.size hc (by norm_num), ← hl3, ← hP, except_ok_bind]
    dsimp only
    rw [h3, h4, hy, except_ok_bind, hu32, segmentOf_ok _ _ _ (by omega), except_ok_bind, segmentOf_ok _ _ _ (by omega), except_ok_bind]
  · unfold speedOn combined
    rw [← hM]
    have e : ∀ J ∈ Finset.range M, (vecOf M fun t => y.getD (0 + t) 0).getD J 0 = ((speedRefs D c)[J]?).elim 0 (globalValue D count.totalDOFs v) := fun J hJ => by
      have hJ' := Finset.mem_range.1 hJ
      rw [vecOf_getD _ hJ', Nat.zero_add, hval, hq, List.getElem?_append_left hJ']
    congr 1
    · funext a q
      exact Finset.sum_congr rfl fun J hJ => congrArg _ (e J hJ)
    · funext a b q
      exact Finset.sum_congr rfl fun J hJ => congrArg _ (e J hJ)
  · unfold pressureOn
    refine Finset.sum_congr rfl fun j hj => congrArg _ ?_
    rw [vecOf_getD _ (Finset.mem_range.1 hj), hval, hq, List.getElem?_append_right (by omega), ← hM, Nat.add_sub_cancel_left, List.getElem?_map]
    cases (cellList (D 3) 2 c)[j]? <;> rfl

/-- One cell: the numbers of the discrete flow that the solution stands for. -/
theorem flowPostCell_ok (hs : IsDfSetup ref mesh boundary info D count) {c : Nat} (hc : c < mesh.num2D) (hsmall : (quadList (dfNum ref) mesh.topo c).length < 2 ^ 32)
    {spaces : Nat → Except Fault (FlowSpace ℝ)} {t : FlowSpace ℝ} (ht : spaces c = .ok t)
    (hT : FlowTables t (Q c) (speedRefs D c).length (cellList (D 3) 2 c).length (x c) (w c) (φ c) (ψ c)) (exact : FlowExact ℝ)
    {g : List ℝ} (hg : g.length = count.totalStrong) {u : List ℝ} (hu : u.length = count.totalDOFs) {v : Nat → ℝ}
    (hv : v = withStrong count.totalDOFs (fun j => u.getD j 0) fun j => g.getD j 0) :
    flowPostCell ((List.range 4).map D) count spaces exact u g c = .ok
      ⟨∑ q ∈ Finset.range (Q c), w c q * (pressureOn D count.totalDOFs (ψ c) c v q - exact.pressure (x c q)) ^ 2,
      ∑ q ∈ Finset.range (Q c), w c q * pressureOn D count.totalDOFs (ψ c) c v q ^ 2,
      ∑ q ∈ Finset.range (Q c), w c q * gradSquare fun a b => (speedOn D count.totalDOFs (φ c) c v).grad a b q - exact.derivative (x c q) (3 * a + b),
      ∑ q ∈ Finset.range (Q c), w c q * gradSquare fun a b => (speedOn D count.totalDOFs (φ c) c v).grad a b q⟩ := by
  obtain ⟨s, p, hl, hs1, hp1, hsp, hpr⟩ := flowLocal_ok hs hc hsmall hg hu hv
  unfold flowPostCell
  rw [ht, except_ok_bind, hl, except_ok_bind, flowErrors_ok hT exact hs1 hp1, hsp]
  simp only [hpr]

/-- The value at a vertex. -/
theorem flowNumeric_ok (hs : IsDfSetup ref mesh boundary info D count) {g : List ℝ} (hg : g.length = count.totalStrong) {u : List ℝ} (hu : u.length = count.totalDOFs) {d p : Nat} (hd : d < 2)
    (hp : p < mesh.num0D) :
    elasticNumeric (D d) count u g d p = .ok (some (globalValue D count.totalDOFs (withStrong count.totalDOFs (fun j => u.getD j 0) fun j => g.getD j 0) (d, ⟨0, p, 0⟩))) := by
  have H := df_quad hs
  obtain ⟨h1, h2, h3, h4⟩ := setup_count hs
  have F := H.field d (by omega)
  obtain ⟨z, bi, hx, -, -, hlen, -⟩ := F.cell 0 (by norm_num) p hp
  have hl : z.dofs.length = 1 := by rw [hlen, dfNum, if_pos hd, if_pos rfl]
  obtain ⟨⟨ty, i⟩, hz⟩ := List.length_eq_one_iff.1 hl
  have hlook : lookup (D d) ⟨0, p, 0⟩ = some ⟨ty, i⟩ := by simp [lookup, dofAt, hx, hz]
  have hkn := F.known _ _ hlook
  have ho := offset_le D (h := d) (by omega)
  have b1 := H.dofs
  have b2 := H.strongs
  have hoD : unchecked ((List.range 4).map (fieldOffset D)) d = .ok (fieldOffset D d) := (unchecked_ok_iff _ _ _).2 (by rw [List.getElem?_map, List.getElem?_range (by omega)]; rfl)
  have hoS : unchecked ((List.range 4).map (strongOffset D)) d = .ok (strongOffset D d) := (unchecked_ok_iff _ _ _).2 (by rw [List.getElem?_map, List.getElem?_range (by omega)]; rfl)
  have hget : ∀ (a : List ℝ) (k : Nat), k < a.length → unchecked a k = .ok (a.getD k 0) := fun a k hk => (unchecked_ok_iff _ _ _).2 (by simp [List.getD_eq_getElem?_getD, hk])
  have hm : ∀ m, m < 2 ^ 32 → u32 m = m := fun m h => by rw [u32]; exact Nat.mod_eq_of_lt h
  unfold elasticNumeric
  rw [(atIdx_ok_iff _ _ _).2 hx, except_ok_bind, h3, h4, hoD, except_ok_bind, hoS, except_ok_bind, hz]
  unfold globalValue
  dsimp only
  rw [hlook]
  cases ty with
  | unknwon => exact absurd rfl hkn
  | dof =>
    have hi := F.free _ i hlook
    simp only [elasticNumericLoop]
    rw [hm _ (by omega), hget _ _ (by omega), except_ok_bind, withStrong, if_pos (by omega), Nat.add_comm]
  | strong =>
    have hi := F.strong _ i hlook
    simp only [elasticNumericLoop]
    rw [hm _ (by omega), hget _ _ (by omega), except_ok_bind, withStrong, if_neg (by omega), Nat.add_sub_cancel_left, Nat.add_comm]

theorem flow_max (f : Nat → ℝ) (l : List Nat) (m : ℝ) : m ≤ l.foldl (fun m c => if m < f c then f c else m) m ∧ (∀ c ∈ l, f c ≤ l.foldl (fun m c => if m < f c then f c else m) m) ∧
    (l.foldl (fun m c => if m < f c then f c else m) m = m ∨ ∃ c ∈ l, l.foldl (fun m c => if m < f c then f c else m) m = f c) := by
  induction l generalizing m with
  | nil => simp
  | cons a l ih =>
    rw [List.foldl_cons]
    obtain ⟨h1, h2, h3⟩ := ih (if m < f a then f a else m)
    have ha : m ≤ (if m < f a then f a else m) ∧ f a ≤ (if m < f a then f a else m) := by
      split_ifs with h
      · exact ⟨h.le, le_rfl⟩
      · exact ⟨le_rfl, not_lt.1 h⟩
    refine ⟨ha.1.trans h1, fun c hc => ?_, ?_⟩
    · rcases List.mem_cons.1 hc with rfl | hc
      · exact ha.2.trans h1
      · exact h2 c hc
    · rcases h3 with h3 | ⟨c, hc, h3⟩
      · rw [h3]
        split_ifs
        · exact Or.inr ⟨a, by simp, rfl⟩
        · exact Or.inl rfl
      · exact Or.inr ⟨c, by simp [hc], h3⟩

/-- **C178.** The run reports the root of the quadrature, over all cells, of the squared distance of the discrete pressure from the exact one, the same for the gradients of the velocity, and the
norms of the discrete flow; the value at a vertex is that of its unknown or of its boundary condition; the mesh size is the largest diameter. -/
theorem C178_report (hs : IsDfSetup ref mesh boundary info D count) (hsmall : ∀ c < mesh.num2D, ∑ h ∈ Finset.range 4, (cellList (D h) 2 c).length < 2 ^ 32)
    {spaces : Nat → Except Fault (FlowSpace ℝ)}
    (hT : ∀ c < mesh.num2D, ∃ t, spaces c = .ok t ∧ FlowTables t (Q c) (speedRefs D c).length (cellList (D 3) 2 c).length (x c) (w c) (φ c) (ψ c))
    (diameters : Nat → ℝ) (exact : FlowExact ℝ) {g : List ℝ} (hg : g.length = count.totalStrong) {u : List ℝ} (hu : u.length = count.totalDOFs) {v : Nat → ℝ}
    (hv : v = withStrong count.totalDOFs (fun j => u.getD j 0) fun j => g.getD j 0) :
    ∃ R, flowPost Real.sqrt ((List.range 4).map D) count diameters spaces mesh exact u g = .ok R ∧
      R.errorPressure = Real.sqrt (brokenSquare mesh.num2D Q w fun c q => (pressureOn D count.totalDOFs (ψ c) c v q - exact.pressure (x c q)) ^ 2) ∧
      R.normPressure = Real.sqrt (brokenSquare mesh.num2D Q w fun c q => pressureOn D count.totalDOFs (ψ c) c v q ^ 2) ∧
      R.errorSpeed = Real.sqrt (brokenSquare mesh.num2D Q w fun c q =>
        gradSquare fun a b => (speedOn D count.totalDOFs (φ c) c v).grad a b q - exact.derivative (x c q) (3 * a + b)) ∧
      R.normSpeed = Real.sqrt (brokenSquare mesh.num2D Q w fun c q => gradSquare fun a b => (speedOn D count.totalDOFs (φ c) c v).grad a b q) ∧
      (∀ d < 2, ∀ p < mesh.num0D, ((R.numeric[d]?).bind fun l => l[p]?) = some (some (globalValue D count.totalDOFs v (d, ⟨0, p, 0⟩))) ∧
        ((R.exact[d]?).bind fun l => l[p]?) = some (exact.value (mesh.coords p) d)) ∧
      (∀ c < mesh.num2D, diameters c ≤ R.meshSize) ∧ (R.meshSize = 0 ∨ ∃ c < mesh.num2D, R.meshSize = diameters c) := by
  have H := df_quad hs
  have hsm : ∀ c < mesh.num2D, (quadList (dfNum ref) mesh.topo c).length < 2 ^ 32 := fun c hc => by
    rw [quadList_length, localOffset]
    refine lt_of_eq_of_lt ?_ (hsmall c hc)
    exact Finset.sum_congr rfl fun h hh => by rw [(H.field h (Finset.mem_range.1 hh)).list c hc]
  have mc := mapM_ok _ _ (List.range mesh.num2D) fun c hc => (hT c (List.mem_range.1 hc)).elim fun t ht =>
    flowPostCell_ok hs (List.mem_range.1 hc) (hsm c (List.mem_range.1 hc)) ht.1 ht.2 exact hg hu hv
  have mn := mapM_ok (fun d => (List.range mesh.num0D).mapM fun p => do
      let data ← unchecked ((List.range 4).map D) d
      elasticNumeric data count u g d p) (fun d => (List.range mesh.num0D).map fun p => some (globalValue D count.totalDOFs v (d, ⟨0, p, 0⟩))) (List.range 2) fun d hd => by
    refine mapM_ok _ _ _ fun p hp => ?_
    have hd' := List.mem_range.1 hd
    rw [(unchecked_ok_iff ((List.range 4).map D) d (D d)).2 (by rw [List.getElem?_map, List.getElem?_range (by omega)]; rfl), except_ok_bind, flowNumeric_ok hs hg hu hd' (List.mem_range.1 hp), hv]
  have hsum : ∀ f : Nat → ℝ, ((List.range mesh.num2D).map f).sum = ∑ c ∈ Finset.range mesh.num2D, f c := fun f => (range_sum _ _).symm
  unfold flowPost
  rw [mn, except_ok_bind, mc, except_ok_bind]
  obtain ⟨-, m2, m3⟩ := flow_max diameters (List.range mesh.num2D) 0
  refine ⟨_, rfl, ?_, ?_, ?_, ?_, fun d hd p hp => ⟨?_, ?_⟩, fun c hc => m2 c (List.mem_range.2 hc), m3.imp id fun ⟨c, hc, h⟩ => ⟨c, List.mem_range.1 hc, h⟩⟩
  · simp only [List.map_map, Function.comp_def, hsum, brokenSquare]
  · simp only [List.map_map, Function.comp_def, hsum, brokenSquare]
  · simp only [List.map_map, Function.comp_def, hsum, brokenSquare]
  · simp only [List.map_map, Function.comp_def, hsum, brokenSquare]
  · simp [hd, hp]
  · simp [hd, hp]

theorem brokenSquare_zero {n : Nat} {f : Nat → Nat → ℝ} (hw : ∀ c < n, ∀ q < Q c, 0 < w c q) (hf : ∀ c q, 0 ≤ f c q) :
    Real.sqrt (brokenSquare n Q w f) = 0 ↔ ∀ c < n, ∀ q < Q c, f c q = 0 := by
  have h0 : ∀ c ∈ Finset.range n, ∀ q ∈ Finset.range (Q c), 0 ≤ w c q * f c q := fun c hc q hq => mul_nonneg (hw c (Finset.mem_range.1 hc) q (Finset.mem_range.1 hq)).le (hf c q)
  have h1 : 0 ≤ brokenSquare n Q w f := Finset.sum_nonneg fun c hc => Finset.sum_nonneg fun q hq => h0 c hc q hq
  rw [Real.sqrt_eq_zero h1, brokenSquare, Finset.sum_eq_zero_iff_of_nonneg fun c hc => Finset.sum_nonneg fun q hq => h0 c hc q hq]
  constructor
  · intro h c hc q hq
    have := (Finset.sum_eq_zero_iff_of_nonneg fun q hq => h0 c (Finset.mem_range.2 hc) q hq).1 (h c (Finset.mem_range.2 hc)) q (Finset.mem_range.2 hq)
    exact (mul_eq_zero.1 this).resolve_left (hw c hc q hq).ne'
  · intro h c hc
    exact Finset.sum_eq_zero fun q hq => by rw [h c (Finset.mem_range.1 hc) q (Finset.mem_range.1 hq), mul_zero]

theorem gradSquare_zero (G : Nat → Nat → ℝ) : 0 ≤ gradSquare G ∧ (gradSquare G = 0 ↔ ∀ a < 2, ∀ b < 2, G a b = 0) := by
  have h0 : 0 ≤ gradSquare G := Finset.sum_nonneg fun a _ => Finset.sum_nonneg fun b _ => sq_nonneg _
  refine ⟨h0, fun h a ha b hb => ?_, fun h => Finset.sum_eq_zero fun a ha => Finset.sum_eq_zero fun b hb => by
    rw [h a (Finset.mem_range.1 ha) b (Finset.mem_range.1 hb)]; norm_num⟩
  have h1 := (Finset.sum_eq_zero_iff_of_nonneg fun a _ => Finset.sum_nonneg fun b _ => sq_nonneg _).1 h a (Finset.mem_range.2 ha)
  exact pow_eq_zero_iff (two_ne_zero) |>.1 ((Finset.sum_eq_zero_iff_of_nonneg fun b _ => sq_nonneg _).1 h1 b (Finset.mem_range.2 hb))

/-- **C178.** With positive weights, the reported errors are zero exactly if the discrete pressure, or the gradient of the discrete velocity, is the exact one at all points of the quadrature. -/
theorem C178_exact (hs : IsDfSetup ref mesh boundary info D count) (hsmall : ∀ c < mesh.num2D, ∑ h ∈ Finset.range 4, (cellList (D h) 2 c).length < 2 ^ 32)
    {spaces : Nat → Except Fault (FlowSpace ℝ)}
    (hT : ∀ c < mesh.num2D, ∃ t, spaces c = .ok t ∧ FlowTables t (Q c) (speedRefs D c).length (cellList (D 3) 2 c).length (x c) (w c) (φ c) (ψ c))
    (hw : ∀ c < mesh.num2D, ∀ q < Q c, 0 < w c q)
    (diameters : Nat → ℝ) (exact : FlowExact ℝ) {g : List ℝ} (hg : g.length = count.totalStrong) {u : List ℝ} (hu : u.length = count.totalDOFs) {v : Nat → ℝ}
    (hv : v = withStrong count.totalDOFs (fun j => u.getD j 0) fun j => g.getD j 0) :
    ∃ R, flowPost Real.sqrt ((List.range 4).map D) count diameters spaces mesh exact u g = .ok R ∧
      (R.errorPressure = 0 ↔ ∀ c < mesh.num2D, ∀ q < Q c, pressureOn D count.totalDOFs (ψ c) c v q = exact.pressure (x c q)) ∧
      (R.errorSpeed = 0 ↔ ∀ c < mesh.num2D, ∀ q < Q c, ∀ a < 2, ∀ b < 2, (speedOn D count.totalDOFs (φ c) c v).grad a b q = exact.derivative (x c q) (3 * a + b)) := by
  obtain ⟨R, hR, e1, -, e3, -⟩ := C178_report hs hsmall hT diameters exact hg hu hv
  refine ⟨R, hR, ?_, ?_⟩
  · rw [e1, brokenSquare_zero hw fun c q => sq_nonneg _]
    simp only [pow_eq_zero_iff two_ne_zero, sub_eq_zero]
  · rw [e3, brokenSquare_zero hw fun c q => (gradSquare_zero _).1]
    simp only [(gradSquare_zero _).2, sub_eq_zero]

-- C178: the reduced element on two triangles with a closed boundary; the tables are those of shear fields and of the constant pressure
example : ∃ (ref : DfRef2D ℝ) (info : Nat → MeshInfo) (D : Nat → DOFsData) (count : CountData) (spaces : Nat → Except Fault (FlowSpace ℝ)) (u : List ℝ),
    IsDfSetup ref patchMesh (fun _ => closedBoundary) info D count ∧ (∀ c < patchMesh.num2D, ∑ h ∈ Finset.range 4, (cellList (D h) 2 c).length < 2 ^ 32) ∧
    (∀ c < patchMesh.num2D, ∃ t, spaces c = .ok t ∧ FlowTables t 1 (speedRefs D c).length (cellList (D 3) 2 c).length (fun _ => (1, 2)) (fun _ => 1 / 2) shearFields fun _ _ => 1) ∧
    (List.replicate 16 (1 : ℝ)).length = count.totalStrong ∧ u.length = count.totalDOFs ∧ patchMesh.num2D = 2 := by
  obtain ⟨ref, info, D, count, href, hs, -, -, ht, hst⟩ := patch_closed
  refine ⟨ref, info, D, count, fun c => .ok ⟨vecOf 4 fun d => ⟨1, (speedRefs D c).length, fun q J => (shearFields J).grad (d / 2) (d % 2) q⟩,
    ⟨1, (cellList (D 3) 2 c).length, fun _ _ => 1⟩, vecOf 1 fun _ => (1, 2), vecOf 1 fun _ => 1 / 2⟩, List.replicate 5 3, hs, closed_small href hs,
    fun c _ => ⟨_, rfl, rfl, rfl, rfl, rfl⟩, ?_, by rw [ht]; rfl, rfl⟩
  rw [(setup_count hs).2.1, hst, List.length_replicate]

end PolyDiM
