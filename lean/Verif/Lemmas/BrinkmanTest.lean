import Verif.Lemmas.BrinkmanPatchCell

/-!
# Global vectors with given values, and the divergence of a solution
-/

namespace PolyDiM

open Spec MvPolynomial MeasureTheory

variable {k : Nat} {mesh : PlaneMesh ℝ} {poly : Nat → VemPolygon ℝ} {n : Nat → Nat} {len : Nat → Nat → ℝ} {dir : Nat → Nat → Bool} {nrm : Nat → Nat → ℝ × ℝ}
  {triangle : Nat → Rule (ℝ × ℝ) ℝ} {edge : Nat → Rule ℝ ℝ} {ts ws ss vs : List ℝ} {w v₀ : ℝ} {ref : DfRef2D ℝ} {red : Bool} {sqrt : ℝ → ℝ} {lu llt : Solver ℝ}
  {boundary : Nat → Nat → Option BInfo} {info : Nat → MeshInfo} {D : Nat → DOFsData} {count : CountData} {gauss : Nat → Rule ℝ ℝ}

theorem fieldOffset_succ (D : Nat → DOFsData) (h : Nat) : fieldOffset D (h + 1) = fieldOffset D h + (D h).counters.dofs := Finset.sum_range_succ _ _

theorem fieldOffset_mono (D : Nat → DOFsData) {a b : Nat} (h : a ≤ b) : fieldOffset D a ≤ fieldOffset D b := by
  unfold fieldOffset
  exact Finset.sum_le_sum_of_subset (Finset.range_mono h)

/-- Global vectors with given values for the references and a given value of the multiplier. -/
theorem flow_free {num : Nat → Nat → Nat} {topo : Mesh} (H : Quad num topo info D) (χ : Nat × GDOF → ℝ) (l : ℝ) {N : Nat} (hN : fieldOffset D 4 ≤ N) :
    ∃ free : List ℝ, free.length = N ∧ (∀ h < 4, ∀ r i, lookup (D h) r = some ⟨.dof, i⟩ → free.getD (fieldOffset D h + i) 0 = χ (h, r)) ∧
      ∀ j, fieldOffset D 4 ≤ j → j < N → free.getD j 0 = l := by
  have : Nonempty GDOF := ⟨⟨0, 0, 0⟩⟩
  have hex : ∀ j, ∃ y : ℝ, (∀ h < 4, ∀ r i, lookup (D h) r = some ⟨.dof, i⟩ → fieldOffset D h + i = j → y = χ (h, r)) ∧ (fieldOffset D 4 ≤ j → y = l) := by
    intro j
    by_cases hj : ∃ h < 4, ∃ r i, lookup (D h) r = some ⟨.dof, i⟩ ∧ fieldOffset D h + i = j
    · obtain ⟨h, hh, r, i, hr, rfl⟩ := hj
      have hi := (H.field h hh).free r i hr
      refine ⟨χ (h, r), fun h' hh' r' i' hr' he => ?_, fun hle => ?_⟩
      · have hi' := (H.field h' hh').free r' i' hr'
        have : h = h' := by
          rcases Nat.lt_trichotomy h h' with hlt | heq | hlt
          · have := fieldOffset_mono D (show h + 1 ≤ h' by omega)
            rw [fieldOffset_succ] at this
            omega
          · exact heq
          · have := fieldOffset_mono D (show h' + 1 ≤ h by omega)
            rw [fieldOffset_succ] at this
            omega
        subst this
        obtain rfl : i' = i := by omega
        rw [(H.field h hh).inj _ _ _ hr hr' (by simp)]
      · have := fieldOffset_mono D (show h + 1 ≤ 4 by omega)
        rw [fieldOffset_succ] at this
        omega
    · exact ⟨l, fun h hh r i hr he => absurd ⟨h, hh, r, i, hr, he⟩ hj, fun _ => rfl⟩
  choose y hy using hex
  have hget : ∀ j < N, ((List.range N).map y).getD j 0 = y j := by
    intro j hj
    rw [List.getD_eq_getElem?_getD, List.getElem?_map, List.getElem?_range hj, Option.map_some, Option.getD_some]
  refine ⟨(List.range N).map y, by simp, fun h hh r i hr => ?_, fun j hj hjN => by rw [hget j hjN]; exact (hy j).2 hj⟩
  have hi := (H.field h hh).free r i hr
  have := fieldOffset_mono D (show h + 1 ≤ 4 by omega)
  rw [fieldOffset_succ] at this
  rw [hget _ (by omega)]
  exact (hy _).1 h hh r i hr rfl

/-- The value of a reference to a free DOF. -/
theorem fieldValue_free {x g : List ℝ} {h i : Nat} {r : GDOF} (hl : lookup (D h) r = some ⟨.dof, i⟩) : fieldValue D x g (h, r) = x.getD (fieldOffset D h + i) 0 := by
  simp only [fieldValue, valueOf, hl, List.getD_eq_getElem?_getD, List.getElem?_drop]

theorem fieldValue_strong {x g : List ℝ} {h i : Nat} {r : GDOF} (hl : lookup (D h) r = some ⟨.strong, i⟩) : fieldValue D x g (h, r) = g.getD (strongOffset D h + i) 0 := by
  simp only [fieldValue, valueOf, hl, List.getD_eq_getElem?_getD, List.getElem?_drop]

theorem replicate_getD (m i : Nat) : (List.replicate m (0 : ℝ)).getD i 0 = 0 := by
  rw [List.getD_eq_getElem?_getD, List.getElem?_replicate]
  split_ifs <;> rfl

/-- A reference within a field has a free or a strong DOF. -/
theorem flow_lookup {num : Nat → Nat → Nat} {topo : Mesh} (H : Quad num topo info D) {h : Nat} (hh : h < 4) {d c j : Nat} (hd : d ≤ 2) (hc : c < (topo.markers d).length)
    (hj : j < num h d) : ∃ b y, ((info h).bInfo d)[c]? = some b ∧ lookup (D h) ⟨d, c, j⟩ = some y ∧ y.type = typeFor b.type ∧ (y.type = .dof ∨ y.type = .strong) := by
  obtain ⟨x, b, hx, hb, hu, hl, ht⟩ := (H.field h hh).cell d hd c hc
  have hlk : lookup (D h) ⟨d, c, j⟩ = some (x.dofs[j]'(by omega)) := by rw [Handler.lookup_cell hx, List.getElem?_eq_getElem]
  refine ⟨b, _, hb, hlk, ht _ (List.getElem_mem _), ?_⟩
  rw [ht _ (List.getElem_mem _)]
  cases hbt : b.type
  · exact absurd hbt hu
  all_goals simp [typeFor]

/-- The interior references are free. -/
theorem flow_interior (hs : IsDfSetup ref mesh boundary info D count) {h : Nat} (h2 : 2 ≤ h) (h4 : h < 4) {c j : Nat} (hc : c < mesh.num2D) (hj : j < dfNum ref h 2) :
    ∃ i, lookup (D h) ⟨2, c, j⟩ = some ⟨.dof, i⟩ := by
  obtain ⟨b, y, hb, hl, ht, -⟩ := flow_lookup (df_quad hs) h4 le_rfl hc hj
  have := (df_types hs h4 le_rfl).2.2.2 h2 b (List.mem_of_getElem? hb)
  rw [this] at ht
  obtain ⟨t, i⟩ := y
  exact ⟨i, by rw [hl]; congr 2⟩

/-- Test vectors have the given values on free DOFs and vanish on the others. -/
theorem flow_test_value {num : Nat → Nat → Nat} {topo : Mesh} (_H : Quad num topo info D) {χ : Nat × GDOF → ℝ} {y : List ℝ}
    (hy : ∀ h < 4, ∀ r i, lookup (D h) r = some ⟨.dof, i⟩ → y.getD (fieldOffset D h + i) 0 = χ (h, r)) (m : Nat) {h : Nat} (hh : h < 4) (r : GDOF) :
    fieldValue D y (List.replicate m 0) (h, r) = χ (h, r) ∨ fieldValue D y (List.replicate m 0) (h, r) = 0 := by
  cases hl : lookup (D h) r with
  | none => exact Or.inr (by simp only [fieldValue, valueOf, hl])
  | some a =>
    obtain ⟨t, i⟩ := a
    cases t with
    | dof => exact Or.inl (by rw [fieldValue_free hl, hy h hh r i hl])
    | strong => exact Or.inr (by rw [fieldValue_strong hl, replicate_getD])
    | unknwon => exact Or.inr (by simp only [fieldValue, valueOf, hl])

theorem apply_zero (A : DMat ℝ) (i : Nat) : apply A (fun _ => 0) i = 0 := by simp [apply]

theorem polyOf_zero (m : Nat) (c : ℝ × ℝ) (h : ℝ) (p : ℝ × ℝ) : polyOf m c h (fun _ => 0) p = 0 := by simp [polyOf]

theorem gradOf_zero (m : Nat) (c : ℝ × ℝ) (h : ℝ) (p : ℝ × ℝ) : gradOf m c h (fun _ => 0) p = 0 := by simp [gradOf]

/-- The form with a test velocity of which all DOFs vanish. -/
theorem flowForm_pressure {m : Nat} (test : DfTest ℝ) (poly : VemPolygon ℝ) (s : DfSpace2D ℝ) (z p r : Nat → ℝ) :
    flowForm k m test poly s z (fun _ => 0) p r = quadSum s.internal.points s.internal.weights fun x =>
      polyOf m poly.centroid poly.diameter (apply s.V z) x * polyOf m poly.centroid poly.diameter r x := by
  refine quadSum_congr _ _ fun x _ => ?_
  have h0 : ∀ A : DMat ℝ, apply A (fun _ => 0) = fun _ => 0 := fun A => funext fun i => apply_zero A i
  rw [h0, h0, h0, h0, h0, polyOf_zero, polyOf_zero, gradOf_zero]
  simp [brinkmanIntegrand, dot2, component]

/-- The identity a solution satisfies for every test vector. -/
theorem flow_identity (hM : IsDfMesh red k mesh poly n len dir nrm) (hT : IsDfTables k triangle edge ts ws w ss vs v₀) (href : dfRef2D red triangle edge k = .ok ref)
    (hs : IsDfSetup ref mesh boundary info D count) {test : DfTest ℝ} {s : Nat → DfSpace2D ℝ} {p : Nat → DfPressure2D ℝ} {S S0 A : Nat → DMat ℝ} {b mean : Nat → List ℝ} {μ κ : Nat → ℝ}
    {P : BrinkmanProblem ℝ} (hB : BSystem red k mesh poly n len dir ts ws w ss vs v₀ sqrt lu llt ref info D count gauss test s p S S0 A b mean μ κ P)
    {x : List ℝ} (hx : x.length = count.totalDOFs) (hsol : ∀ i < count.totalDOFs, ∑ j ∈ Finset.range x.length, entry P.globalMatrix i j * x.getD j 0 = ventry P.rightHandSide i)
    (y : List ℝ) (u : Nat → Nat → Polynomial ℝ) (hu : ∀ h < 2, IsTrace k mesh ts (fun r => fieldValue D y (List.replicate P.dirichlet.length 0) (h, r)) (u h)) :
    ((List.range mesh.num2D).map fun c =>
          flowForm k (divDegree red k) test (poly c) (s c) (flowVelocity k mesh n D x P.dirichlet c) (flowVelocity k mesh n D y (List.replicate P.dirichlet.length 0) c)
            (flowPressure D x P.dirichlet c) (flowPressure D y (List.replicate P.dirichlet.length 0) c)
          + μ c * (∑ i ∈ Finset.range (numVelocityDofs k (divDegree red k) (n c)), flowVelocity k mesh n D y (List.replicate P.dirichlet.length 0) c i *
              apply (S c) (flowVelocity k mesh n D x P.dirichlet c) i)
          + κ c * ∑ i ∈ Finset.range (numVelocityDofs k (divDegree red k) (n c)), flowVelocity k mesh n D y (List.replicate P.dirichlet.length 0) c i *
              apply (S0 c) (flowVelocity k mesh n D x P.dirichlet c) i).sum
        + (if count.totalBoundary = 0 then
            ((List.range mesh.num2D).map fun c => quadSum (s c).internal.points (s c).internal.weights
              (polyOf (divDegree red k) (poly c).centroid (poly c).diameter (flowPressure D y (List.replicate P.dirichlet.length 0) c))).sum * x.getD (fieldOffset D 4) 0
            + y.getD (fieldOffset D 4) 0 * ((List.range mesh.num2D).map fun c => quadSum (s c).internal.points (s c).internal.weights
              (polyOf (divDegree red k) (poly c).centroid (poly c).diameter (flowPressure D x P.dirichlet c))).sum else 0)
      = ((List.range mesh.num2D).map fun c => quadSum (s c).internal.points (s c).internal.weights fun q =>
          test.source q 0 * polyOf k (poly c).centroid (poly c).diameter (apply (s c).pi0k.1 (flowVelocity k mesh n D y (List.replicate P.dirichlet.length 0) c)) q
          + test.source q 1 * polyOf k (poly c).centroid (poly c).diameter (apply (s c).pi0k.2 (flowVelocity k mesh n D y (List.replicate P.dirichlet.length 0) c)) q
          + test.divergence q * polyOf (divDegree red k) (poly c).centroid (poly c).diameter (flowPressure D y (List.replicate P.dirichlet.length 0) c) q).sum
      - ((List.range mesh.num2D).map fun c => ∑ h ∈ Finset.range 2, ∑ e ∈ Finset.range (n c),
          weakValue (info h) mesh len (quadSum (gauss (2 * k)).points (gauss (2 * k)).weights) (fun m p => test.weak m p h) (u h) c e).sum := by
  rw [← flow_rows hM hT href hs hB x P.dirichlet y hx hB.dirichletLength, ← flow_rhs hM hT href hB y P.dirichlet.length u hu]
  refine Finset.sum_congr rfl fun i hi => ?_
  rw [hsol i (Finset.mem_range.1 hi)]

theorem list_sum_single {N c : Nat} (hc : c < N) {f : Nat → ℝ} (hf : ∀ j < N, j ≠ c → f j = 0) : ((List.range N).map f).sum = f c := by
  show ∑ j ∈ Finset.range N, f j = f c
  exact Finset.sum_eq_single c (fun j hj hne => hf j (Finset.mem_range.1 hj) hne) fun h => absurd (Finset.mem_range.2 hc) h

theorem quadSum_zero {X : Type} (ps : List X) (wt : List ℝ) : quadSum ps wt (fun _ => (0 : ℝ)) = 0 := by
  have := quadSum_add ps wt (fun _ => (0 : ℝ)) (fun _ => 0)
  simp only [add_zero] at this
  linarith

/-- A test vector of a pressure on one cell. -/
theorem pressure_vector (hT : IsDfTables k triangle edge ts ws w ss vs v₀) (href : dfRef2D red triangle edge k = .ok ref)
    (hs : IsDfSetup ref mesh boundary info D count) (m : Nat) {c : Nat} (hc : c < mesh.num2D) (r : Nat → ℝ) :
    ∃ y : List ℝ, y.length = count.totalDOFs ∧ y.getD (fieldOffset D 4) 0 = 0 ∧ (∀ h < 3, ∀ a, fieldValue D y (List.replicate m 0) (h, a) = 0) ∧
      (∀ c', flowVelocity k mesh n D y (List.replicate m 0) c' = fun _ => 0) ∧ (∀ c', c' ≠ c → flowPressure D y (List.replicate m 0) c' = fun _ => 0) ∧
      ∀ j < (divDegree red k + 1) * (divDegree red k + 2) / 2, flowPressure D y (List.replicate m 0) c j = r j := by
  have H := df_quad hs
  obtain ⟨bd, hcount, -⟩ := df_count hT href hs
  have hN : fieldOffset D 4 ≤ count.totalDOFs := by rw [hcount]; exact Nat.le_add_right _ _
  obtain ⟨y, hyl, hyv, hy0⟩ := flow_free H (χ := fun a => if a.1 = 3 ∧ a.2.cell = c then r a.2.dof else 0) 0 hN
  have hy : y.getD (fieldOffset D 4) 0 = 0 := by
    rcases Nat.lt_or_ge (fieldOffset D 4) count.totalDOFs with h | h
    · exact hy0 _ le_rfl h
    · rw [List.getD_eq_getElem?_getD, List.getElem?_eq_none (by omega)]; rfl
  have hvel : ∀ h < 3, ∀ a, fieldValue D y (List.replicate m 0) (h, a) = 0 := by
    intro h hh a
    rcases flow_test_value (χ := fun a => if a.1 = 3 ∧ a.2.cell = c then r a.2.dof else 0) H hyv m (show h < 4 by omega) a with h1 | h1
    · rw [h1]
      simp only
      rw [if_neg (by omega)]
    · exact h1
  have hV : ∀ c', flowVelocity k mesh n D y (List.replicate m 0) c' = fun _ => 0 := by
    intro c'
    funext j
    unfold flowVelocity
    split_ifs
    exacts [hvel 0 (by omega) _, hvel 1 (by omega) _, hvel 2 (by omega) _]
  have hp0 : ∀ c', c' ≠ c → flowPressure D y (List.replicate m 0) c' = fun _ => 0 := by
    intro c' hne
    funext j
    unfold flowPressure
    rcases flow_test_value (χ := fun a => if a.1 = 3 ∧ a.2.cell = c then r a.2.dof else 0) H hyv m (show 3 < 4 by omega) ⟨2, c', j⟩ with h1 | h1
    · rw [h1]
      simp only
      rw [if_neg (fun h => hne h.2)]
    · exact h1
  have hp1 : ∀ j < (divDegree red k + 1) * (divDegree red k + 2) / 2, flowPressure D y (List.replicate m 0) c j = r j := by
    intro j hj
    obtain ⟨i, hi⟩ := flow_interior hs (show 2 ≤ 3 by omega) (by omega) hc (show j < dfNum ref 3 2 by rw [(df_numbers hT href).2.2.2.2]; exact hj)
    unfold flowPressure
    rw [fieldValue_free hi, hyv 3 (by omega) _ _ hi]
    simp
  exact ⟨y, hyl, hy, hvel, hV, hp0, hp1⟩

/-- The rows of the pressures of one cell. -/
theorem pressure_rows (hM : IsDfMesh red k mesh poly n len dir nrm) (hT : IsDfTables k triangle edge ts ws w ss vs v₀) (href : dfRef2D red triangle edge k = .ok ref)
    (hs : IsDfSetup ref mesh boundary info D count) {test : DfTest ℝ} {s : Nat → DfSpace2D ℝ} {p : Nat → DfPressure2D ℝ} {S S0 A : Nat → DMat ℝ} {b mean : Nat → List ℝ} {μ κ : Nat → ℝ}
    {P : BrinkmanProblem ℝ} (hB : BSystem red k mesh poly n len dir ts ws w ss vs v₀ sqrt lu llt ref info D count gauss test s p S S0 A b mean μ κ P)
    {x : List ℝ} (hx : x.length = count.totalDOFs) (hsol : ∀ i < count.totalDOFs, ∑ j ∈ Finset.range x.length, entry P.globalMatrix i j * x.getD j 0 = ventry P.rightHandSide i)
    {c : Nat} (hc : c < mesh.num2D) (r : Nat → ℝ) :
    (quadSum (s c).internal.points (s c).internal.weights fun q =>
      polyOf (divDegree red k) (poly c).centroid (poly c).diameter (apply (s c).V (flowVelocity k mesh n D x P.dirichlet c)) q
        * polyOf (divDegree red k) (poly c).centroid (poly c).diameter r q)
      + (if count.totalBoundary = 0 then quadSum (s c).internal.points (s c).internal.weights (polyOf (divDegree red k) (poly c).centroid (poly c).diameter r)
          * x.getD (fieldOffset D 4) 0 else 0)
      = quadSum (s c).internal.points (s c).internal.weights fun q => test.divergence q * polyOf (divDegree red k) (poly c).centroid (poly c).diameter r q := by
  obtain ⟨y, hyl, hy, hvel, hV, hp0, hp1⟩ := pressure_vector (n := n) hT href hs P.dirichlet.length hc r
  have hpoly : ∀ q, polyOf (divDegree red k) (poly c).centroid (poly c).diameter (flowPressure D y (List.replicate P.dirichlet.length 0) c) q
      = polyOf (divDegree red k) (poly c).centroid (poly c).diameter r q := fun q => polyOf_congr _ _ hp1 q
  have hpoly0 : ∀ c', c' ≠ c → ∀ q, polyOf (divDegree red k) (poly c').centroid (poly c').diameter (flowPressure D y (List.replicate P.dirichlet.length 0) c') q = 0 := by
    intro c' hne q
    rw [hp0 c' hne, polyOf_zero]
  have h0 : ∀ A : DMat ℝ, apply A (fun _ => 0) = fun _ => 0 := fun A => funext fun i => apply_zero A i
  have hq0 : ∀ (ps : List (ℝ × ℝ)) (wt : List ℝ), quadSum ps wt (fun _ => (0 : ℝ)) = 0 := fun ps wt => quadSum_zero ps wt
  have hid := flow_identity hM hT href hs hB hx hsol y (fun _ _ => 0) (fun h hh E hE => by
    refine ⟨by simp, ?_, ?_, fun j t _ => ?_⟩ <;> simp only [Polynomial.eval_zero] <;> exact (hvel h (by omega) _).symm)
  rw [list_sum_single hc (f := fun c => flowForm _ _ _ _ _ _ _ _ _ + _ + _), list_sum_single hc (f := fun c => quadSum _ _ fun q => _ + _ + _),
    list_sum_single hc (f := fun c => quadSum (s c).internal.points (s c).internal.weights (polyOf (divDegree red k) (poly c).centroid (poly c).diameter (flowPressure D y _ c))), hy] at hid
  · simp only [hV, h0, polyOf_zero, mul_zero, zero_add, zero_mul, Finset.sum_const_zero, add_zero, flowForm_pressure, hpoly] at hid
    have hw : ∀ c' e h, weakValue (info h) mesh len (quadSum (gauss (2 * k)).points (gauss (2 * k)).weights) (fun m p => test.weak m p h) (fun _ => 0) c' e = 0 := by
      intro c' e h
      unfold weakValue
      cases ((info h).bInfo 1)[cellEdge mesh c' e]? with
      | none => rfl
      | some bb =>
        simp only [Option.elim_some, Polynomial.eval_zero, mul_zero, quadSum_zero, ite_self]
    simp only [hw, Finset.sum_const_zero, List.map_const', List.sum_replicate, smul_zero, sub_zero] at hid
    rw [← hid]
    congr 2
    exact congrArg (· * _) (quadSum_congr _ _ fun q _ => (hpoly q).symm)
  · intro c' hc' hne
    rw [quadSum_congr _ _ (fun q _ => hpoly0 c' hne q), hq0]
  · intro c' hc' hne
    simp only [hV, h0, polyOf_zero, mul_zero, zero_add]
    rw [quadSum_congr _ _ (g := fun _ => 0) (fun q _ => by rw [hpoly0 c' hne q, mul_zero]), hq0]
  · intro c' hc' hne
    simp only [hV, flowForm_pressure, zero_mul, Finset.sum_const_zero, mul_zero, add_zero]
    rw [quadSum_congr _ _ (g := fun _ => 0) (fun q _ => by rw [hpoly0 c' hne q, mul_zero]), hq0]

/-- The divergence of a solution is the projection of the datum minus the multiplier. -/
theorem flow_divergence (hM : IsDfMesh red k mesh poly n len dir nrm) (hT : IsDfTables k triangle edge ts ws w ss vs v₀) (href : dfRef2D red triangle edge k = .ok ref)
    (hs : IsDfSetup ref mesh boundary info D count) {test : DfTest ℝ} {s : Nat → DfSpace2D ℝ} {p : Nat → DfPressure2D ℝ} {S S0 A : Nat → DMat ℝ} {b mean : Nat → List ℝ} {μ κ : Nat → ℝ}
    {P : BrinkmanProblem ℝ} (hB : BSystem red k mesh poly n len dir ts ws w ss vs v₀ sqrt lu llt ref info D count gauss test s p S S0 A b mean μ κ P)
    {x : List ℝ} (hx : x.length = count.totalDOFs) (hsol : ∀ i < count.totalDOFs, ∑ j ∈ Finset.range x.length, entry P.globalMatrix i j * x.getD j 0 = ventry P.rightHandSide i)
    {c : Nat} (hc : c < mesh.num2D) {G : MvPolynomial (Fin 2) ℝ} (hG : G.totalDegree ≤ divDegree red k) (hdiv : ∀ q ∈ (s c).internal.points, test.divergence q = ev2 G q) (q : ℝ × ℝ) :
    polyOf (divDegree red k) (poly c).centroid (poly c).diameter (apply (s c).V (flowVelocity k mesh n D x P.dirichlet c)) q
      = ev2 G q - if count.totalBoundary = 0 then x.getD (fieldOffset D 4) 0 else 0 := by
  have hm := divDegree_le red hT.two
  set l := if count.totalBoundary = 0 then x.getD (fieldOffset D 4) 0 else 0 with hl
  have hE := hM.plane.element c hc
  have hsp := hB.space c hc
  set v := combo k (poly c).centroid (poly c).diameter (tri (divDegree red k + 1)) (apply (s c).V (flowVelocity k mesh n D x P.dirichlet c)) with hv
  have hd : (v + C l - G).totalDegree ≤ divDegree red k := by
    refine (totalDegree_sub _ _).trans (max_le ((totalDegree_add _ _).trans (max_le (combo_degree _ (by omega)) ?_)) hG)
    rw [totalDegree_C]
    omega
  obtain ⟨r, hr⟩ := basisPoly_span k (poly c).centroid (poly c).diameter hE.diameter (m := divDegree red k) (by omega) _ hd
  have hr' : v + C l - G = combo k (poly c).centroid (poly c).diameter (tri (divDegree red k + 1)) r := hr
  have hz : v + C l - G = 0 := by
    refine hsp.discrete.definite _ (hd.trans (by omega)) ?_
    have := pressure_rows hM hT href hs hB hx hsol hc r
    have hpr : ∀ q, polyOf (divDegree red k) (poly c).centroid (poly c).diameter r q = ev2 (v + C l - G) q := by
      intro q
      rw [df_polyOf (k := k) (by omega) rfl, hr']
    have hpv : ∀ q, polyOf (divDegree red k) (poly c).centroid (poly c).diameter (apply (s c).V (flowVelocity k mesh n D x P.dirichlet c)) q = ev2 v q :=
      fun q => df_polyOf (k := k) (by omega) rfl _ q
    have h1 : (if count.totalBoundary = 0 then quadSum (s c).internal.points (s c).internal.weights (polyOf (divDegree red k) (poly c).centroid (poly c).diameter r)
          * x.getD (fieldOffset D 4) 0 else 0) = quadLin (s c).internal.points (s c).internal.weights (C l * (v + C l - G)) := by
      have h2 : quadSum (s c).internal.points (s c).internal.weights (polyOf (divDegree red k) (poly c).centroid (poly c).diameter r)
          = quadLin (s c).internal.points (s c).internal.weights (v + C l - G) := quadSum_congr _ _ fun q _ => hpr q
      rw [quadLin_C_mul, h2]
      by_cases hb : count.totalBoundary = 0
      · rw [if_pos hb, hl, if_pos hb, mul_comm]
      · rw [if_neg hb, hl, if_neg hb, zero_mul]
    have hmul : ∀ (a b : MvPolynomial (Fin 2) ℝ) (q : ℝ × ℝ), ev2 a q * ev2 b q = ev2 (a * b) q := fun a b q => (map_mul (eval ![q.1, q.2]) a b).symm
    have h4 : (quadSum (s c).internal.points (s c).internal.weights fun q => test.divergence q * polyOf (divDegree red k) (poly c).centroid (poly c).diameter r q)
        = quadLin (s c).internal.points (s c).internal.weights (G * (v + C l - G)) := quadSum_congr _ _ fun q hq => by rw [hdiv q hq, hpr, hmul]
    have h5 : (quadSum (s c).internal.points (s c).internal.weights fun q =>
        polyOf (divDegree red k) (poly c).centroid (poly c).diameter (apply (s c).V (flowVelocity k mesh n D x P.dirichlet c)) q
        * polyOf (divDegree red k) (poly c).centroid (poly c).diameter r q)
        = quadLin (s c).internal.points (s c).internal.weights (v * (v + C l - G)) := quadSum_congr _ _ fun q hq => by rw [hpv, hpr, hmul]
    rw [h1, h4, h5] at this
    have h2 : (v + C l - G) * (v + C l - G) = v * (v + C l - G) + C l * (v + C l - G) - G * (v + C l - G) := by ring
    rw [h2, map_sub, map_add]
    linarith
  rw [df_polyOf (k := k) (by omega) rfl]
  have := congrArg (fun P => ev2 P q) hz
  simp only [ev2, map_add, map_sub, eval_C, map_zero] at this ⊢
  linarith

end PolyDiM
