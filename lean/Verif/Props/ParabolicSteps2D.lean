import Verif.Props.Parabolic2D

/-!
# C149, C150: energy and time values of the heat equation in the plane
-/

namespace PolyDiM

open Spec MvPolynomial

theorem tripletForm_comb (F : List (Nat × Nat × ℝ)) (N : Nat) (a b c d : ℝ) (x y z t : Nat → ℝ) :
    tripletForm F N (fun i => a * x i + b * y i) (fun i => c * z i + d * t i)
      = a * c * tripletForm F N x z + a * d * tripletForm F N x t + b * c * tripletForm F N y z + b * d * tripletForm F N y t := by
  unfold tripletForm
  simp only [Finset.mul_sum]
  simp only [← Finset.sum_add_distrib]
  exact Finset.sum_congr rfl fun i _ => Finset.sum_congr rfl fun j _ => by ring

/-- The product of a vector with the rows of a matrix. -/
theorem tripletForm_rows (F : List (Nat × Nat × ℝ)) (N : Nat) (x : Nat → ℝ) (u : List ℝ) (hu : u.length = N) :
    ∑ i ∈ Finset.range N, x i * ∑ j ∈ Finset.range u.length, entry F i j * u.getD j 0 = tripletForm F N x fun j => u.getD j 0 := by
  rw [hu]
  rfl

theorem heatRow_zero (F D : List (Nat × Nat × ℝ)) (free strong : List ℝ) (h : ∀ x ∈ strong, x = 0) (i : Nat) :
    heatRow F D free strong i = ∑ j ∈ Finset.range free.length, entry F i j * free.getD j 0 := by
  unfold heatRow
  rw [Finset.sum_eq_zero (s := Finset.range strong.length), add_zero]
  intro j hj
  rw [List.getD_eq_getElem?_getD, List.getElem?_eq_getElem (Finset.mem_range.1 hj), Option.getD_some, h _ (List.getElem_mem _), mul_zero]

/-- The identity of the energy of one step. -/
theorem step_energy {N : Nat} {dt theta : ℝ} {P : ParabolicStatic ℝ} (hsym : ∀ x y : Nat → ℝ, tripletForm P.globalM N x y = tripletForm P.globalM N y x)
    {st : ParabolicState ℝ} {d : ParabolicData ℝ} {u : List ℝ} (hu : u.length = N) (hf : st.free.length = N) (hs : ∀ x ∈ st.strong, x = 0) (hd : ∀ x ∈ d.dirichlet, x = 0)
    (heq : ∀ i < N, ∑ j ∈ Finset.range u.length, entry (thetaMatrices dt theta P).next i j * u.getD j 0 = ventry (thetaRhs dt theta (thetaMatrices dt theta P) st d) i) :
    tripletForm P.globalM N (fun i => u.getD i 0) (fun i => u.getD i 0) - tripletForm P.globalM N (fun i => st.free.getD i 0) (fun i => st.free.getD i 0)
      + (2 * theta - 1) * tripletForm P.globalM N (fun i => u.getD i 0 - st.free.getD i 0) (fun i => u.getD i 0 - st.free.getD i 0)
      + 2 * dt * tripletForm P.globalA N (fun i => theta * u.getD i 0 + (1 - theta) * st.free.getD i 0) (fun i => theta * u.getD i 0 + (1 - theta) * st.free.getD i 0)
      = 2 * dt * ∑ i ∈ Finset.range N, (theta * u.getD i 0 + (1 - theta) * st.free.getD i 0) * (theta * ventry d.rightHandSide i + (1 - theta) * ventry st.force i) := by
  set U : Nat → ℝ := fun i => u.getD i 0 with hU
  set O : Nat → ℝ := fun i => st.free.getD i 0 with hO
  set W : Nat → ℝ := fun i => theta * U i + (1 - theta) * O i with hW
  have h : ∑ i ∈ Finset.range N, W i * (∑ j ∈ Finset.range u.length, entry (thetaMatrices dt theta P).next i j * u.getD j 0
      - ventry (thetaRhs dt theta (thetaMatrices dt theta P) st d) i) = 0 := Finset.sum_eq_zero fun i hi => by rw [heq i (Finset.mem_range.1 hi), sub_self, mul_zero]
  simp only [theta_rows, heatRow_zero _ _ _ _ hs, heatRow_zero _ _ _ _ hd] at h
  have e1 := tripletForm_rows P.globalA N W u hu
  have e2 := tripletForm_rows P.globalA N W st.free hf
  have e3 := tripletForm_rows P.globalM N W u hu
  have e4 := tripletForm_rows P.globalM N W st.free hf
  have h' : dt * theta * (tripletForm P.globalA N W U - ∑ i ∈ Finset.range N, W i * ventry d.rightHandSide i)
      + dt * (1 - theta) * (tripletForm P.globalA N W O - ∑ i ∈ Finset.range N, W i * ventry st.force i) + (tripletForm P.globalM N W U - tripletForm P.globalM N W O) = 0 := by
    have gen : ∀ (α β : ℝ) (a f b g p r : Nat → ℝ), α * (∑ i ∈ Finset.range N, W i * a i - ∑ i ∈ Finset.range N, W i * f i)
        + β * (∑ i ∈ Finset.range N, W i * b i - ∑ i ∈ Finset.range N, W i * g i) + (∑ i ∈ Finset.range N, W i * p i - ∑ i ∈ Finset.range N, W i * r i)
        = ∑ i ∈ Finset.range N, W i * (α * (a i - f i) + β * (b i - g i) + (p i - r i)) := by
      intro α β a f b g p r
      rw [← Finset.sum_sub_distrib, ← Finset.sum_sub_distrib, ← Finset.sum_sub_distrib, Finset.mul_sum, Finset.mul_sum, ← Finset.sum_add_distrib, ← Finset.sum_add_distrib]
      exact Finset.sum_congr rfl fun i _ => by ring
    rw [← e1, ← e2, ← e3, ← e4]
    exact (gen _ _ _ _ _ _ _ _).trans h
  have eA : tripletForm P.globalA N W W = theta * tripletForm P.globalA N W U + (1 - theta) * tripletForm P.globalA N W O := by
    have := tripletForm_comb P.globalA N 1 0 theta (1 - theta) W W U O
    simp only [one_mul, zero_mul, add_zero] at this
    exact this
  have c1 := tripletForm_comb P.globalM N theta (1 - theta) 1 0 U O U U
  have c2 := tripletForm_comb P.globalM N theta (1 - theta) 1 0 U O O O
  have c3 := tripletForm_comb P.globalM N 1 (-1) 1 (-1) U O U O
  simp only [one_mul, zero_mul, add_zero, mul_zero, mul_one] at c1 c2
  have c3' : tripletForm P.globalM N (fun i => U i - O i) (fun i => U i - O i) = tripletForm P.globalM N U U - 2 * tripletForm P.globalM N U O + tripletForm P.globalM N O O := by
    have : (fun i => U i - O i) = fun i => 1 * U i + -1 * O i := by
      funext i
      ring
    rw [this, c3, hsym O U]
    ring
  have s1 := hsym O U
  have e5 : ∑ i ∈ Finset.range N, W i * (theta * ventry d.rightHandSide i + (1 - theta) * ventry st.force i)
      = theta * ∑ i ∈ Finset.range N, W i * ventry d.rightHandSide i + (1 - theta) * ∑ i ∈ Finset.range N, W i * ventry st.force i := by
    rw [Finset.mul_sum, Finset.mul_sum, ← Finset.sum_add_distrib]
    exact Finset.sum_congr rfl fun i _ => by ring
  rw [eA, c3', e5]
  rw [← hW] at c1 c2
  linear_combination 2 * h' - 2 * c1 + 2 * c2 - 2 * (1 - theta) * s1

section energy
variable {k : Nat} {mesh : PlaneMesh ℝ} {poly : Nat → VemPolygon ℝ} {n : Nat → Nat} {len : Nat → Nat → ℝ} {dir : Nat → Nat → Bool} {nrm : Nat → Nat → ℝ × ℝ}
  {triangle : Nat → Rule (ℝ × ℝ) ℝ} {edge : Nat → Rule ℝ ℝ} {ts ws : List ℝ} {w : ℝ} {lu llt : Solver ℝ}
  {ref : VemRef2D ℝ} {boundary : Nat → Option BInfo} {info : MeshInfo} {data : DOFsData} {gauss : Nat → Rule ℝ ℝ} {test : ParabolicTest ℝ}

/-- C149: the balance of the energy in one step, with homogeneous Dirichlet values. -/
theorem C149_energy (hM : IsPlaneMesh k mesh poly n len dir nrm) (hT : IsTables k triangle edge ts ws w) (hlu : SolvesRegular lu) (hllt : SolvesPosDef llt)
    (hr : vemRef2D triangle edge k = .ok ref) (hi : vemMeshInfo ref mesh.topo boundary = .ok info) (hdata : createDOFs 2 info mesh.topo = .ok data)
    (hov : totalRequested info 2 < 2 ^ 32) (hact : ∀ c < mesh.num2D, mesh.active2D c = true)
    (hcover : ∀ d ≤ 2, ∀ E < (mesh.topo.markers d).length, ∃ c ∈ mesh.cells, E ∈ entities mesh d c) {κ : ℝ} (hκ : ∀ p, test.diffusion p = κ) (hκ0 : 0 < κ)
    {dt theta : ℝ} (ha : 0 < dt * theta) {solve : List (Nat × Nat × ℝ) → List (Nat × ℝ) → List ℝ} (hsolve : SolvesSystems data.counters.dofs solve) :
    ∃ P, parabolicStatic data (vemSpaces lu llt ref poly) mesh test = .ok P ∧ ∀ (st : ParabolicState ℝ) (d : ParabolicData ℝ), st.free.length = data.counters.dofs →
      (∀ x ∈ st.strong, x = 0) → (∀ x ∈ d.dirichlet, x = 0) → ∀ u, u = (thetaStep solve data.counters.dofs dt theta (thetaMatrices dt theta P) st d).free →
        u.length = data.counters.dofs ∧
        tripletForm P.globalM data.counters.dofs (fun i => u.getD i 0) (fun i => u.getD i 0)
            - tripletForm P.globalM data.counters.dofs (fun i => st.free.getD i 0) (fun i => st.free.getD i 0)
          + (2 * theta - 1) * tripletForm P.globalM data.counters.dofs (fun i => u.getD i 0 - st.free.getD i 0) (fun i => u.getD i 0 - st.free.getD i 0)
          + 2 * dt * tripletForm P.globalA data.counters.dofs (fun i => theta * u.getD i 0 + (1 - theta) * st.free.getD i 0)
              (fun i => theta * u.getD i 0 + (1 - theta) * st.free.getD i 0)
          = 2 * dt * ∑ i ∈ Finset.range data.counters.dofs, (theta * u.getD i 0 + (1 - theta) * st.free.getD i 0)
              * (theta * ventry d.rightHandSide i + (1 - theta) * ventry st.force i) := by
  have H := handler_plane hT hr hi hdata hov
  obtain ⟨s, Φ, S, T, A, M, κmax, P, hH⟩ := heat_mesh hM hT hlu hllt hr H hact test
  refine ⟨P, hH.static, fun st d hf hs hd u hu => ?_⟩
  have hdef := fun x => (step_definite hM hT hlu hllt hr H hH hκ hκ0 hcover ha x).2
  have hreg : ∀ x : Nat → ℝ, (∀ i < data.counters.dofs, ∑ j ∈ Finset.range data.counters.dofs, entry (thetaMatrices dt theta P).next i j * x j = 0) → ∀ i < data.counters.dofs, x i = 0 :=
    fun x h => hdef x (by
      unfold tripletForm
      exact Finset.sum_eq_zero fun i hi => by rw [h i (Finset.mem_range.1 hi), mul_zero])
  obtain ⟨h1, h2⟩ := hsolve (thetaMatrices dt theta P).next (thetaRhs dt theta (thetaMatrices dt theta P) st d) hreg
  have hlen : u.length = data.counters.dofs := by
    rw [hu, thetaStep]
    dsimp only
    split_ifs with h0
    · exact h1
    · simp only [List.length_nil]
      omega
  refine ⟨hlen, step_energy (mass_symm H hH) hlen hf hs hd fun i hi => ?_⟩
  rw [hlen]
  have : u = solve (thetaMatrices dt theta P).next (thetaRhs dt theta (thetaMatrices dt theta P) st d) := by
    rw [hu, thetaStep]
    exact if_pos (by omega)
  rw [this]
  exact h2 i hi

/-- C149: for `theta ≥ 1 / 2`, without loads and with homogeneous Dirichlet values, the energy never grows in the loop. -/
theorem C149_stable (hM : IsPlaneMesh k mesh poly n len dir nrm) (hT : IsTables k triangle edge ts ws w) (hlu : SolvesRegular lu) (hllt : SolvesPosDef llt)
    (hr : vemRef2D triangle edge k = .ok ref) (hi : vemMeshInfo ref mesh.topo boundary = .ok info) (hdata : createDOFs 2 info mesh.topo = .ok data)
    (hov : totalRequested info 2 < 2 ^ 32) (hact : ∀ c < mesh.num2D, mesh.active2D c = true)
    (hcover : ∀ d ≤ 2, ∀ E < (mesh.topo.markers d).length, ∃ c ∈ mesh.cells, E ∈ entities mesh d c) {κ : ℝ} (hκ : ∀ p, test.diffusion p = κ) (hκ0 : 0 < κ)
    {dt theta : ℝ} (hdt : 0 < dt) (hth : 1 / 2 ≤ theta) {solve : List (Nat × Nat × ℝ) → List (Nat × ℝ) → List ℝ} (hsolve : SolvesSystems data.counters.dofs solve)
    (assemble : ℝ → Except Fault (ParabolicData ℝ)) (hass : ∀ t d, assemble t = .ok d → (∀ x ∈ d.dirichlet, x = 0) ∧ ∀ i < data.counters.dofs, ventry d.rightHandSide i = 0) :
    ∃ P, parabolicStatic data (vemSpaces lu llt ref poly) mesh test = .ok P ∧ ∀ (times : List ℝ) (st : ParabolicState ℝ) (states : List (ParabolicState ℝ)),
      st.free.length = data.counters.dofs → (∀ x ∈ st.strong, x = 0) → (∀ i < data.counters.dofs, ventry st.force i = 0) →
      thetaLoop solve data.counters.dofs dt theta (thetaMatrices dt theta P) assemble st times = .ok states →
      (st :: states).IsChain fun a b => tripletForm P.globalM data.counters.dofs (fun i => b.free.getD i 0) (fun i => b.free.getD i 0)
        ≤ tripletForm P.globalM data.counters.dofs (fun i => a.free.getD i 0) (fun i => a.free.getD i 0) := by
  have H := handler_plane hT hr hi hdata hov
  obtain ⟨s, Φ, S, T, A, M, κmax, P, hH⟩ := heat_mesh hM hT hlu hllt hr H hact test
  obtain ⟨P', hP', hen⟩ := C149_energy hM hT hlu hllt hr hi hdata hov hact hcover hκ hκ0 (mul_pos hdt (show 0 < theta by linarith)) hsolve
  obtain rfl : P' = P := Except.ok.inj (hP'.symm.trans hH.static)
  refine ⟨P', hP', fun times => ?_⟩
  induction times with
  | nil =>
    intro st states _ _ _ h
    obtain rfl := Except.ok.inj h
    exact List.isChain_singleton _
  | cons t times ih =>
    intro st states hf hs h0 h
    unfold thetaLoop at h
    obtain ⟨d, hd, h⟩ := (bind_ok_iff _ _ _).1 h
    obtain ⟨rest, hrest, h⟩ := (bind_ok_iff _ _ _).1 h
    obtain rfl := Except.ok.inj h
    obtain ⟨hd1, hd2⟩ := hass t d hd
    obtain ⟨hlen, he⟩ := hen st d hf hs hd1 _ rfl
    refine List.isChain_cons_cons.2 ⟨?_, ih _ rest hlen hd1 hd2 hrest⟩
    have hz : ∀ w : Nat → ℝ, ∑ i ∈ Finset.range data.counters.dofs, w i * (theta * ventry d.rightHandSide i + (1 - theta) * ventry st.force i) = 0 := fun w =>
      Finset.sum_eq_zero fun i hi => by rw [hd2 i (Finset.mem_range.1 hi), h0 i (Finset.mem_range.1 hi), mul_zero, mul_zero, add_zero, mul_zero]
    rw [hz, mul_zero] at he
    have m1 := mul_nonneg (show 0 ≤ 2 * theta - 1 by linarith) (mass_nonneg hM hT hlu hllt hr H hH
      (fun i => (thetaStep solve data.counters.dofs dt theta (thetaMatrices dt theta P') st d).free.getD i 0 - st.free.getD i 0))
    have m2 := mul_nonneg (show 0 ≤ 2 * dt by linarith) (stiff_nonneg hM hT hlu hllt hr H hH hκ hκ0
      (fun i => theta * (thetaStep solve data.counters.dofs dt theta (thetaMatrices dt theta P') st d).free.getD i 0 + (1 - theta) * st.free.getD i 0))
    linarith

end energy

/-- C150: on a time domain of length one the time values go from the first to the last in steps of `dt`. -/
theorem C150_grid_partial {N : Nat} (hN : 0 < N) {equispace : ℝ → List ℝ} (he : equispace (1 / N) = unitGrid N) {first last : ℝ} (hl : last - first = 1) :
    (createTimeSteps equispace (1 / N) first last).head? = some first ∧ (createTimeSteps equispace (1 / N) first last).getLast? = some last ∧
      (createTimeSteps equispace (1 / N) first last).IsChain fun a b => b = a + (1 : ℝ) / N := by
  have hN' : (N : ℝ) ≠ 0 := by positivity
  unfold createTimeSteps
  rw [he, hl, unitGrid]
  refine ⟨?_, ?_, ?_⟩
  · rw [List.range_succ_eq_map]
    simp
  · rw [List.range_succ]
    simp [div_self hN']
    linarith
  · rw [List.map_map, List.isChain_iff_getElem]
    intro i hi
    simp only [List.getElem_map, List.getElem_range, Function.comp_apply]
    push_cast
    ring

/-- C150: on any other time domain the time values are not `dt` apart. -/
theorem C150_grid_wrong {N : Nat} (hN : 0 < N) {equispace : ℝ → List ℝ} (he : equispace (1 / N) = unitGrid N) {first last : ℝ} (hl : last - first ≠ 1) :
    ¬ (createTimeSteps equispace (1 / N) first last).IsChain fun a b => b = a + (1 : ℝ) / N := by
  have hN' : (N : ℝ) ≠ 0 := by positivity
  unfold createTimeSteps
  rw [he, unitGrid, List.map_map, List.isChain_iff_getElem]
  intro h
  have := h 0 (by simp; omega)
  simp only [List.getElem_map, List.getElem_range, Function.comp_apply] at this
  refine hl ?_
  field_simp at this
  push_cast at this
  linarith

theorem thetaLoop_length (solve : List (Nat × Nat × ℝ) → List (Nat × ℝ) → List ℝ) (dofs : Nat) (dt theta : ℝ) (T : ThetaMatrices ℝ) (assemble : ℝ → Except Fault (ParabolicData ℝ))
    (hconst : ∀ t t', assemble t = assemble t') : ∀ (a b : List ℝ), a.length = b.length → ∀ st, thetaLoop solve dofs dt theta T assemble st a = thetaLoop solve dofs dt theta T assemble st b := by
  intro a
  induction a with
  | nil =>
    intro b hb st
    obtain rfl := List.length_eq_zero_iff.1 hb.symm
    rfl
  | cons x a ih =>
    intro b hb st
    cases b with
    | nil => simp at hb
    | cons y b =>
      unfold thetaLoop
      rw [hconst x y]
      congr 1
      funext d
      dsimp only
      rw [ih b (by simpa using hb)]

/-- C150: for data that do not depend on the time, the run does not depend on the time domain: the states are those of the domain of length one. -/
theorem C150_clock (solve : List (Nat × Nat × ℝ) → List (Nat × ℝ) → List ℝ) (info : MeshInfo) (data : DOFsData) (order : Nat) (gauss : Nat → Rule ℝ ℝ) (geometry : Nat → PolyEdges ℝ)
    (spaces : Nat → Except Fault (CellSpace2D ℝ)) (mesh : PlaneMesh ℝ) (test : ParabolicTest ℝ) (hs : ∀ t, test.source t = test.source 0) (hD : ∀ t, test.strong t = test.strong 0)
    (hW : ∀ t, test.weak t = test.weak 0) (dt theta : ℝ) (equispace : ℝ → List ℝ) (step first last first' last' : ℝ) :
    parabolicRun solve info data order gauss geometry spaces mesh test dt theta (createTimeSteps equispace step first last)
      = parabolicRun solve info data order gauss geometry spaces mesh test dt theta (createTimeSteps equispace step first' last') := by
  have hcell : ∀ t t' c, parabolicCell info data order gauss geometry spaces mesh test t c = parabolicCell info data order gauss geometry spaces mesh test t' c := by
    intro t t' c
    unfold parabolicCell parabolicStrong parabolicWeak
    rw [hs t, hs t', hD t, hD t', hW t, hW t']
  have hass : ∀ t t', parabolicAssemble info data order gauss geometry spaces mesh test t = parabolicAssemble info data order gauss geometry spaces mesh test t' := by
    intro t t'
    unfold parabolicAssemble
    rw [funext (hcell t t')]
  unfold createTimeSteps
  generalize equispace step = l
  unfold parabolicRun
  congr 1
  funext P
  congr 1
  funext u
  cases l with
  | nil => rfl
  | cons x l =>
    have h1 : ∀ a b : ℝ, unchecked (((x :: l).map fun t => (b - a) * t + a)) 0 = .ok ((b - a) * x + a) := fun _ _ => rfl
    rw [h1, h1, except_ok_bind, except_ok_bind, hass ((last - first) * x + first) ((last' - first') * x + first')]
    congr 1
    funext d
    dsimp only
    rw [thetaLoop_length solve _ dt theta _ _ hass _ ((((x :: l).map fun t => (last' - first') * t + first')).drop 1) (by simp)]

/-- Neumann conditions on the whole boundary of the mesh of two triangles. -/
def naturalBoundary (m : Nat) : Option BInfo := some (if m = 0 then ⟨.none, 0⟩ else ⟨.weak, m⟩)

theorem patch_mesh_one : IsPlaneMesh 1 patchMesh patchPoly (fun _ => 3) patchLen patchDir patchNrm :=
  ⟨patch_mesh.vertices, patch_mesh.edges, patch_mesh.element, patch_mesh.measure, patch_mesh.ends, fun _ _ => by norm_num⟩

theorem natural_dofs {ref : VemRef2D ℝ}
    (hr : vemRef2D (fun _ => ⟨[((1 / 2 : ℝ), 0), (1 / 2, 1 / 2), (0, 1 / 2)], [1 / 6, 1 / 6, 1 / 6]⟩) (fun _ => ⟨[0, 1], [1 / 2, 1 / 2]⟩) 1 = .ok ref) :
    ∃ info data, vemMeshInfo ref patchMesh.topo naturalBoundary = .ok info ∧ createDOFs 2 info patchMesh.topo = .ok data ∧ totalRequested info 2 < 2 ^ 32 ∧
      data.counters.dofs = 4 ∧ data.counters.strongs = 0 ∧ info.bInfo 0 = [⟨.weak, 1⟩, ⟨.weak, 1⟩, ⟨.weak, 2⟩, ⟨.weak, 1⟩] ∧
      info.bInfo 1 = [⟨.weak, 1⟩, ⟨.weak, 2⟩, ⟨.none, 0⟩, ⟨.weak, 3⟩, ⟨.weak, 1⟩] ∧ info.bInfo 2 = [⟨.none, 0⟩, ⟨.none, 0⟩] := by
  obtain ⟨info, hi, ht, data, hd, h1, h2, h3, h4, h5⟩ : ∃ info, createConstantInfo 2 patchTopo ⟨numOf 1, naturalBoundary⟩ = .ok info ∧ totalRequested info 2 = 4 ∧
      ∃ data, createDOFs 2 info patchTopo = .ok data ∧ data.counters.dofs = 4 ∧ data.counters.strongs = 0 ∧ info.bInfo 0 = [⟨.weak, 1⟩, ⟨.weak, 1⟩, ⟨.weak, 2⟩, ⟨.weak, 1⟩] ∧
      info.bInfo 1 = [⟨.weak, 1⟩, ⟨.weak, 2⟩, ⟨.none, 0⟩, ⟨.weak, 3⟩, ⟨.weak, 1⟩] ∧ info.bInfo 2 = [⟨.none, 0⟩, ⟨.none, 0⟩] := ⟨_, rfl, rfl, _, rfl, rfl, rfl, rfl, rfl, rfl⟩
  refine ⟨info, data, ?_, hd, by omega, h1, h2, h3, h4, h5⟩
  rw [numOf_ref midpoint_tables hr]
  exact hi

theorem patch_covered : ∀ d ≤ 2, ∀ E < (patchMesh.topo.markers d).length, ∃ c ∈ patchMesh.cells, E ∈ entities patchMesh d c := by
  have hcells : patchMesh.cells = [0, 1] := by simp [PlaneMesh.cells, PlaneMesh.num2D, patchMesh, patchTopo, List.range_succ]
  intro d hd E hE
  rw [hcells]
  interval_cases d
  · have : E < 4 := hE
    interval_cases E <;> simp [entities, patchMesh, patchTopo]
  · have : E < 5 := hE
    interval_cases E <;> simp [entities, patchMesh, patchTopo]
  · have : E < 2 := hE
    interval_cases E <;> simp [entities]

/-- The heat equation with source one and no flux: the solution is the time. -/
noncomputable def risingTest : ParabolicTest ℝ := ⟨fun _ => 1, fun _ _ => 1, fun _ _ _ => 0, fun _ _ _ => 0, fun _ => 0⟩

/-- C150: on the time domain `[0, 2]` with step `1 / 2` the last time value is 2, but the computed solution is the one at time 1. -/
theorem C150_wrong : ∃ lu : Solver ℝ, ∃ ref info data, SolvesRegular lu ∧ SolvesPosDef lu ∧
    vemMeshInfo ref patchMesh.topo naturalBoundary = .ok info ∧ createDOFs 2 info patchMesh.topo = .ok data ∧ data.counters.dofs = 4 ∧
    ∀ solve, SolvesSystems 4 solve → ∀ equispace : ℝ → List ℝ, equispace (1 / 2) = unitGrid 2 → ∃ states st v₁ v₂, createTimeSteps equispace (1 / 2) 0 2 = [0, 1, 2] ∧
      parabolicRun solve info data 1 (fun _ => ⟨[0, 1 / 2, 1], [1 / 6, 2 / 3, 1 / 6]⟩) (fun c => (patchPoly c).edges) (vemSpaces lu lu ref patchPoly) patchMesh risingTest (1 / 2) 1
        (createTimeSteps equispace (1 / 2) 0 2) = .ok states ∧ states.getLast? = some st ∧
      evaluateOnDofs data 1 (vemSpaces lu lu ref patchPoly) patchMesh (fun _ => 1) = .ok v₁ ∧ evaluateOnDofs data 1 (vemSpaces lu lu ref patchPoly) patchMesh (fun _ => 2) = .ok v₂ ∧
      st.free = v₁.free ∧ st.free ≠ v₂.free := by
  obtain ⟨lu, h1, h2⟩ := exists_solvers
  obtain ⟨ref, hr⟩ : ∃ ref, vemRef2D (fun _ => ⟨[((1 / 2 : ℝ), 0), (1 / 2, 1 / 2), (0, 1 / 2)], [1 / 6, 1 / 6, 1 / 6]⟩) (fun _ => ⟨[0, 1], [1 / 2, 1 / 2]⟩) 1 = .ok ref :=
    ⟨_, vemRef_ok midpoint_tables⟩
  obtain ⟨info, data, hi, hd, ho, hdofs, hstr, hb0, hb1, hb2⟩ := natural_dofs hr
  have hcells : patchMesh.cells = [0, 1] := by simp [PlaneMesh.cells, PlaneMesh.num2D, patchMesh, patchTopo, List.range_succ]
  have hnos : ∀ d ≤ 2, ∀ (b : BInfo) (E : Nat), (info.bInfo d)[E]? = some b → b.type ≠ .strong := by
    intro d hd' b E hb ht
    interval_cases d
    · rw [hb0] at hb
      have hE : E < 4 := (List.getElem?_eq_some_iff.1 hb).1
      interval_cases E <;> obtain rfl := Option.some.inj hb <;> cases ht
    · rw [hb1] at hb
      have hE : E < 5 := (List.getElem?_eq_some_iff.1 hb).1
      interval_cases E <;> obtain rfl := Option.some.inj hb <;> cases ht
    · rw [hb2] at hb
      have hE : E < 2 := (List.getElem?_eq_some_iff.1 hb).1
      interval_cases E <;> obtain rfl := Option.some.inj hb <;> cases ht
  refine ⟨lu, ref, info, data, h1, h2, hi, hd, hdofs, fun solve hsolve equispace heq => ?_⟩
  have hsimpson : ExactOnSegment (2 * 1) [0, 1 / 2, 1] [1 / 6, 2 / 3, 1 / 6] := by
    intro q hq
    have hq' : ∀ t, q.eval t = q.coeff 0 + q.coeff 1 * t + q.coeff 2 * t ^ 2 := by
      intro t
      rw [Polynomial.eval_eq_sum_range' (n := 3) (by omega)]
      simp [Finset.sum_range_succ]
    simp only [hq']
    rw [intervalIntegral.integral_add, intervalIntegral.integral_add, intervalIntegral.integral_const_mul, intervalIntegral.integral_const_mul, integral_pow, integral_id,
      intervalIntegral.integral_const]
    · norm_num [quadSum]
      ring
    all_goals exact Continuous.intervalIntegrable (by fun_prop) _ _
  have ht2 : createTimeSteps equispace (1 / 2) 0 2 = [0, 1, 2] := by
    rw [createTimeSteps, heq, unitGrid]
    norm_num [List.range_succ]
  have ht1 : createTimeSteps equispace (1 / 2) 0 1 = [0, 1 / 2, 1] := by
    rw [createTimeSteps, heq, unitGrid]
    norm_num [List.range_succ]
  obtain ⟨states, hrun, hall⟩ := C147_patch (gauss := fun _ => ⟨[0, 1 / 2, 1], [1 / 6, 2 / 3, 1 / 6]⟩) (test := risingTest) (q₀ := 0) (q₁ := 1) (q₂ := 0) (κ := 1) (dt := 1 / 2) (theta := 1)
    (first := 0) (rest := [1 / 2, 1]) (solve := solve)
    patch_mesh_one midpoint_tables (by norm_num) h1 h2 hr hi hd ho rfl hsimpson
    (by intro t ht; simp only [List.mem_cons, List.not_mem_nil, or_false] at ht; rcases ht with rfl | rfl | rfl <;> norm_num) (fun _ _ => rfl) patch_covered
    (fun E b hb => by
      rw [hb1] at hb
      have hE : E < 5 := (List.getElem?_eq_some_iff.1 hb).1
      interval_cases E <;> obtain rfl := Option.some.inj hb <;> simp)
    (fun E b hb ht => by
      rw [hb1] at hb
      have hE : E < 5 := (List.getElem?_eq_some_iff.1 hb).1
      rw [signedCount, hcells]
      interval_cases E <;> obtain rfl := Option.some.inj hb <;> first | (cases ht; done) | rfl)
    (fun E b hb ht => absurd ht (hnos 1 (by omega) b E hb)) (fun d hd' b E hb ht => absurd ht (hnos d hd' b E hb)) (hdofs ▸ hsolve) (fun _ => rfl) one_pos (by norm_num) one_pos
    (by simp) (by simp) (by simp) (Or.inl rfl) (fun t p => by simp [risingTest, heatRate, heatAt]) (fun τ c _ e _ b _ _ t _ _ => by simp [risingTest, heatAt])
    (fun t d hd' b E hb ht => absurd ht (hnos d hd' b E hb)) (by norm_num) (fun p => by simp [risingTest, heatAt])
  have hclock := C150_clock solve info data 1 (fun _ => ⟨[0, 1 / 2, 1], [1 / 6, 2 / 3, 1 / 6]⟩) (fun c => (patchPoly c).edges) (vemSpaces lu lu ref patchPoly) patchMesh risingTest
    (fun _ => rfl) (fun _ => rfl) (fun _ => rfl) (1 / 2) 1 equispace (1 / 2) 0 2 0 1
  rw [ht1, hrun] at hclock
  have H := handler_plane midpoint_tables hr hi hd ho
  have hconst : ∀ a : ℝ, ∃ v, evaluateOnDofs data 1 (vemSpaces lu lu ref patchPoly) patchMesh (fun _ => a) = .ok v ∧ v.strong = [] ∧
      IsDofVector 1 (patchPoly 0) 3 (cellPoint patchMesh 0) (patchDir 0) [] (fun _ => a) (onList (vemList 1 patchMesh.topo 0) (valueOf data v.free v.strong)) := by
    intro a
    have e : (fun _ : ℝ × ℝ => a) = fun p => eval ![p.1, p.2] (C a : MvPolynomial (Fin 2) ℝ) := by
      funext p
      simp
    obtain ⟨N, hN1, hN2⟩ := moments_ok patch_mesh_one midpoint_tables h1 h2 hr fun _ => a
    obtain ⟨v, hv, hvf, hvs, hvv⟩ := evaluate_ok patch_mesh_one midpoint_tables h1 h2 hr H _ N hN1
    refine ⟨v, hv, List.length_eq_zero_iff.1 (hvs.trans hstr), ?_⟩
    refine local_dofVector patch_mesh_one midpoint_tables.nodes (show 0 < 2 by norm_num) (hN2 (C a) (by simp) (fun _ => by simp) 0 (show 0 < 2 by norm_num)) fun j r hj => ?_
    rw [onList, hj, Option.elim_some, hvv 0 (show 0 < 2 by norm_num) r (List.mem_of_getElem? hj)]
  obtain ⟨v₁, hv₁, hs₁, hy₁⟩ := hconst 1
  obtain ⟨v₂, hv₂, hs₂, hy₂⟩ := hconst 2
  obtain ⟨s0, l0, -, hall0, rfl⟩ := List.forall₂_cons_left_iff.1 hall
  obtain ⟨s1, l1, -, hall1, rfl⟩ := List.forall₂_cons_left_iff.1 hall0
  obtain ⟨s2, l2, ⟨v, hv, hf, -⟩, hall2, rfl⟩ := List.forall₂_cons_left_iff.1 hall1
  obtain rfl := List.forall₂_nil_left_iff.1 hall2
  have hvv : v = v₁ := by
    have e : (fun p : ℝ × ℝ => eval ![p.1, p.2] (heatAt 0 1 0 1)) = fun _ => (1 : ℝ) := by
      funext p
      simp [heatAt]
    rw [e] at hv
    exact Except.ok.inj (hv.symm.trans hv₁)
  subst hvv
  refine ⟨_, s2, v, v₂, ht2, hclock, rfl, hv₁, hv₂, hf, fun h => ?_⟩
  have a1 := hy₁.vertex 0 (by norm_num)
  have a2 := hy₂.vertex 0 (by norm_num)
  rw [← h, hf, hs₂, ← hs₁, a1] at a2
  norm_num at a2

/-- On both triangles the polynomial `x + y - 1` has mean value zero. -/
theorem patch_mean {lu llt : Solver ℝ} (hlu : SolvesRegular lu) (hllt : SolvesPosDef llt) {c : Nat} (hc : c < patchMesh.num2D) (a : ℝ) :
    ∫ p in unionOf (patchPoly c).tris, ev2 ((X 0 + X 1 - C 1) * C a) p = 0 := by
  obtain ⟨ref, s, -, -, hs⟩ := vemCreate_ok (patch_mesh_one.element c hc) midpoint_tables hlu hllt
  have hdeg : ∀ b d e : ℝ, (C b * X 0 + C d * X 1 + C e : MvPolynomial (Fin 2) ℝ).totalDegree ≤ 1 := fun b d e =>
    (totalDegree_add _ _).trans (max_le ((totalDegree_add _ _).trans (max_le ((totalDegree_mul _ _).trans (by simp)) ((totalDegree_mul _ _).trans (by simp)))) (by simp))
  have e1 : ((X 0 + X 1 - C 1) * C a : MvPolynomial (Fin 2) ℝ) = C a * X 0 + C a * X 1 + C (-a) := by
    simp only [map_neg, map_one]
    ring
  have hd : ((X 0 + X 1 - C 1) * C a : MvPolynomial (Fin 2) ℝ).totalDegree ≤ 2 * 1 := by
    rw [e1]
    exact (hdeg _ _ _).trans (by norm_num)
  rw [← hs.rules.integral _ hd, hs.rules.pieces _ hd]
  have hex : ∀ b d e : ℝ, b + d + 3 * e = 0 → ∫ p in {p : ℝ × ℝ | InTriangle (0, 0) (1, 0) (0, 1) p}, eval ![p.1, p.2] (C b * X 0 + C d * X 1 + C e : MvPolynomial (Fin 2) ℝ) = 0 := by
    intro b d e h
    rw [← midpoint_tables.triangleExact _ ((hdeg b d e).trans (by norm_num))]
    simp [quadSum]
    linarith
  have hc2 : c < 2 := hc
  have hz : ∀ v ∈ (patchPoly c).tris, ∫ p in {p : ℝ × ℝ | InTriangle (0, 0) (1, 0) (0, 1) p}, ev2 ((X 0 + X 1 - C 1) * C a) (v.1 + tri2L v p) = 0 := by
    intro v hv
    obtain rfl := List.mem_singleton.1 hv
    interval_cases c
    · refine Eq.trans ?_ (hex a (2 * a) (-a) (by ring))
      congr 1
      funext p
      simp [ev2, tri2L, cellPoint, cellVertex, patchMesh, patchTopo, squareV]
      ring
    · refine Eq.trans ?_ (hex (2 * a) a (-a) (by ring))
      congr 1
      funext p
      simp [ev2, tri2L, cellPoint, cellVertex, patchMesh, patchTopo, squareV]
      ring
  refine List.sum_eq_zero fun z hzm => ?_
  obtain ⟨v, hv, rfl⟩ := List.mem_map.1 hzm
  rw [hz v hv, mul_zero]

-- C146_explicit: the mesh of two triangles, order 1, Neumann conditions; the DOFs of `x + y - 1` are in the kernel of the matrix of explicit Euler
example (dt : ℝ) (test : ParabolicTest ℝ) : ∃ lu : Solver ℝ, ∃ ref info data P, SolvesRegular lu ∧ SolvesPosDef lu ∧ vemMeshInfo ref patchMesh.topo naturalBoundary = .ok info ∧
    createDOFs 2 info patchMesh.topo = .ok data ∧ data.counters.dofs = 4 ∧ parabolicStatic data (vemSpaces lu lu ref patchPoly) patchMesh test = .ok P ∧
    ∃ x : Nat → ℝ, (∃ i < 4, x i ≠ 0) ∧ ∀ i < 4, ∑ j ∈ Finset.range 4, entry (thetaMatrices dt 0 P).next i j * x j = 0 := by
  obtain ⟨lu, h1, h2⟩ := exists_solvers
  obtain ⟨ref, hr⟩ : ∃ ref, vemRef2D (fun _ => ⟨[((1 / 2 : ℝ), 0), (1 / 2, 1 / 2), (0, 1 / 2)], [1 / 6, 1 / 6, 1 / 6]⟩) (fun _ => ⟨[0, 1], [1 / 2, 1 / 2]⟩) 1 = .ok ref :=
    ⟨_, vemRef_ok midpoint_tables⟩
  obtain ⟨info, data, hi, hd, ho, hdofs, hstr, -⟩ := natural_dofs hr
  obtain ⟨P, hP, h⟩ := C146_explicit (test := test) (q := X 0 + X 1 - C 1) patch_mesh_one midpoint_tables h1 h2 hr hi hd ho (fun _ _ => rfl) (show 0 < 2 by norm_num) hstr dt
    (fun h0 => by
      have := congrArg (eval ![(0 : ℝ), 0]) h0
      simp at this)
    ((totalDegree_sub _ _).trans (max_le ((totalDegree_add _ _).trans (by simp)) (by simp)))
    (fun c hc z hz => by
      have hz' : z = C (coeff 0 z) := totalDegree_eq_zero_iff_eq_C.1 (Nat.le_zero.1 hz)
      have := patch_mean h1 h2 hc (coeff 0 z)
      rw [← hz'] at this
      simpa only [ev2, map_mul] using this)
  rw [hdofs] at h
  exact ⟨lu, ref, info, data, P, h1, h2, hi, hd, hdofs, hP, h⟩

/-- The problem of the solution `q₀ + t q₁ + t² q₂`, with Neumann data on the right and on the upper side. -/
noncomputable def patchHeat (κ : ℝ) (q₀ q₁ q₂ : MvPolynomial (Fin 2) ℝ) : ParabolicTest ℝ where
  diffusion _ := κ
  source t p := eval ![p.1, p.2] (heatRate q₁ q₂ t) - κ * eval ![p.1, p.2] (pderiv 0 (pderiv 0 (heatAt q₀ q₁ q₂ t)) + pderiv 1 (pderiv 1 (heatAt q₀ q₁ q₂ t)))
  strong t _ p := eval ![p.1, p.2] (heatAt q₀ q₁ q₂ t)
  weak t m p := if m = 2 then κ * eval ![p.1, p.2] (pderiv 0 (heatAt q₀ q₁ q₂ t)) else κ * eval ![p.1, p.2] (pderiv 1 (heatAt q₀ q₁ q₂ t))
  initial p := eval ![p.1, p.2] q₀

-- C147: the mesh of two triangles, order 2, Crank-Nicolson, two steps; any solution of degree 2 in space and in time; six free DOFs
example (κ : ℝ) (hκ : 0 < κ) (q₀ q₁ q₂ : MvPolynomial (Fin 2) ℝ) (h0 : q₀.totalDegree ≤ 2) (h1 : q₁.totalDegree ≤ 2) (h2 : q₂.totalDegree ≤ 2) :
    ∃ lu : Solver ℝ, ∃ ref info data solve states, SolvesRegular lu ∧ SolvesPosDef lu ∧ SolvesSystems 6 solve ∧
    vemMeshInfo ref patchMesh.topo patchBoundary = .ok info ∧ createDOFs 2 info patchMesh.topo = .ok data ∧ data.counters.dofs = 6 ∧
    parabolicRun solve info data 2 (fun _ => ⟨[0, 1 / 4, 1 / 2, 3 / 4, 1], [7 / 90, 16 / 45, 2 / 15, 16 / 45, 7 / 90]⟩) (fun c => (patchPoly c).edges) (vemSpaces lu lu ref patchPoly) patchMesh
      (patchHeat κ q₀ q₁ q₂) (1 / 2) (1 / 2) [0, 1 / 2, 1] = .ok states ∧
    List.Forall₂ (fun t (st : ParabolicState ℝ) => ∃ v, evaluateOnDofs data 2 (vemSpaces lu lu ref patchPoly) patchMesh (fun p => eval ![p.1, p.2] (heatAt q₀ q₁ q₂ t)) = .ok v ∧
      st.free = v.free ∧ st.strong = v.strong) [0, 1 / 2, 1] states := by
  obtain ⟨lu, l1, l2⟩ := exists_solvers
  obtain ⟨ref, info, data, hr, hi, hd, ho, ⟨hb0, hb1, hb2⟩, hc, hs⟩ := patch_dofs
  obtain ⟨p1, p2, p3, p4⟩ := patch_conditions hb0 hb1
  obtain ⟨solve, hsolve⟩ := exists_system_solver 6
  have hcells : patchMesh.cells = [0, 1] := by simp [PlaneMesh.cells, PlaneMesh.num2D, patchMesh, patchTopo, List.range_succ]
  obtain ⟨states, hrun, hall⟩ := C147_patch (gauss := fun _ => ⟨[0, 1 / 4, 1 / 2, 3 / 4, 1], [7 / 90, 16 / 45, 2 / 15, 16 / 45, 7 / 90]⟩) (test := patchHeat κ q₀ q₁ q₂)
    (q₀ := q₀) (q₁ := q₁) (q₂ := q₂) (dt := 1 / 2) (theta := 1 / 2) (first := 0) (rest := [1 / 2, 1]) (solve := solve) patch_mesh square_tables
    (by norm_num) l1 l2 hr hi hd ho rfl boole_exact (by intro t ht; simp only [List.mem_cons, List.not_mem_nil, or_false] at ht; rcases ht with rfl | rfl | rfl | rfl | rfl <;> norm_num)
    (fun c _ => rfl) patch_covered p1 p2 p3
    (fun d hd' b E hb ht => by
      rw [hcells]
      interval_cases d
      · rw [hb0] at hb
        have hE : E < 4 := (List.getElem?_eq_some_iff.1 hb).1
        interval_cases E <;> simp_all [entities, patchMesh, patchTopo]
      · rw [hb1] at hb
        have hE : E < 5 := (List.getElem?_eq_some_iff.1 hb).1
        interval_cases E <;> simp_all [entities, patchMesh, patchTopo]
      · rw [hb2] at hb
        have hE : E < 2 := (List.getElem?_eq_some_iff.1 hb).1
        interval_cases E <;> obtain rfl := Option.some.inj hb <;> cases ht)
    (hc ▸ hsolve) (fun _ => rfl) hκ (by norm_num) (by norm_num) h0 h1 h2 (Or.inr rfl) (fun _ _ => rfl)
    (fun τ c hc e he b hb ht t _ _ => (p4 (fun p => κ * eval ![p.1, p.2] (pderiv 0 (heatAt q₀ q₁ q₂ τ))) (fun p => κ * eval ![p.1, p.2] (pderiv 1 (heatAt q₀ q₁ q₂ τ)))
      c hc e he b hb ht _).trans (by ring))
    (fun _ _ _ _ _ _ _ _ => rfl) (by norm_num) (fun p => by simp [patchHeat, heatAt])
  exact ⟨lu, ref, info, data, solve, states, l1, l2, hsolve, hi, hd, hc, hrun, hall⟩

-- C148, C149: the mesh of two triangles, order 1, Neumann conditions, implicit Euler; the energy of every initial state decays
example (κ : ℝ) (hκ : 0 < κ) (dt : ℝ) (hdt : 0 < dt) (u : List ℝ) (hu : u.length = 4) : ∃ lu : Solver ℝ, ∃ ref info data solve P states, SolvesRegular lu ∧ SolvesPosDef lu ∧
    SolvesSystems 4 solve ∧ vemMeshInfo ref patchMesh.topo naturalBoundary = .ok info ∧ createDOFs 2 info patchMesh.topo = .ok data ∧ data.counters.dofs = 4 ∧
    parabolicStatic data (vemSpaces lu lu ref patchPoly) patchMesh (patchHeat κ 0 0 0) = .ok P ∧
    (∀ x : Nat → ℝ, (∃ i < 4, x i ≠ 0) → 0 < tripletForm (thetaMatrices dt 1 P).next 4 x x) ∧
    (∀ (st : ParabolicState ℝ) (d : ParabolicData ℝ), ∃! x : List ℝ, x.length = 4 ∧
      ∀ i < 4, ∑ j ∈ Finset.range 4, entry (thetaMatrices dt 1 P).next i j * x.getD j 0 = ventry (thetaRhs dt 1 (thetaMatrices dt 1 P) st d) i) ∧
    thetaLoop solve 4 dt 1 (thetaMatrices dt 1 P) (fun _ => .ok ⟨[], []⟩) ⟨u, [], []⟩ [1, 2] = .ok states ∧ states.length = 2 ∧
    ((⟨u, [], []⟩ : ParabolicState ℝ) :: states).IsChain fun a b =>
      tripletForm P.globalM 4 (fun i => b.free.getD i 0) (fun i => b.free.getD i 0) ≤ tripletForm P.globalM 4 (fun i => a.free.getD i 0) (fun i => a.free.getD i 0) := by
  obtain ⟨lu, h1, h2⟩ := exists_solvers
  obtain ⟨ref, hr⟩ : ∃ ref, vemRef2D (fun _ => ⟨[((1 / 2 : ℝ), 0), (1 / 2, 1 / 2), (0, 1 / 2)], [1 / 6, 1 / 6, 1 / 6]⟩) (fun _ => ⟨[0, 1], [1 / 2, 1 / 2]⟩) 1 = .ok ref :=
    ⟨_, vemRef_ok midpoint_tables⟩
  obtain ⟨info, data, hi, hd, ho, hdofs, hstr, -⟩ := natural_dofs hr
  obtain ⟨solve, hsolve⟩ := exists_system_solver 4
  obtain ⟨P, hP, -, -, hdef⟩ := C148_definite (test := patchHeat κ 0 0 0) (dt := dt) (theta := 1) patch_mesh_one midpoint_tables h1 h2 hr hi hd ho (fun _ _ => rfl) patch_covered (fun _ => rfl) hκ
    (by linarith)
  obtain ⟨P', hP', huniq⟩ := C148_unique (test := patchHeat κ 0 0 0) (dt := dt) (theta := 1) patch_mesh_one midpoint_tables h1 h2 hr hi hd ho (fun _ _ => rfl) patch_covered (fun _ => rfl) hκ
    (by linarith)
  obtain rfl : P' = P := Except.ok.inj (hP'.symm.trans hP)
  obtain ⟨P'', hP'', hdec⟩ := C149_stable (test := patchHeat κ 0 0 0) (dt := dt) (theta := 1) patch_mesh_one midpoint_tables h1 h2 hr hi hd ho (fun _ _ => rfl) patch_covered (fun _ => rfl) hκ
    hdt (by norm_num) (hdofs ▸ hsolve) (fun _ => .ok ⟨[], []⟩) (fun t d h => by
      obtain rfl := Except.ok.inj h
      exact ⟨fun x hx => absurd hx List.not_mem_nil, fun i _ => rfl⟩)
  obtain rfl : P'' = P' := Except.ok.inj (hP''.symm.trans hP)
  rw [hdofs] at hdef huniq hdec
  exact ⟨lu, ref, info, data, solve, P'', _, h1, h2, hsolve, hi, hd, hdofs, hP, hdef, huniq, rfl, rfl,
    hdec [1, 2] ⟨u, [], []⟩ _ hu (fun x hx => absurd hx List.not_mem_nil) (fun i _ => rfl) rfl⟩

-- C150: three steps on the time domain `[1, 2]`, and two steps on `[0, 5]`
example : (createTimeSteps (fun _ => unitGrid 3) (1 / (3 : Nat)) 1 2).IsChain (fun a b => b = a + (1 : ℝ) / (3 : Nat)) ∧
    ¬ (createTimeSteps (fun _ => unitGrid 2) (1 / (2 : Nat)) 0 5).IsChain (fun a b => b = a + (1 : ℝ) / (2 : Nat)) :=
  ⟨(C150_grid_partial (by norm_num) rfl (by norm_num)).2.2, C150_grid_wrong (by norm_num) rfl (by norm_num)⟩

end PolyDiM
