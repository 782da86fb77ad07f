import Verif.Lemmas.BrinkmanEdges

/-!
# Lemmas: the DOFs of the Brinkman problem
-/

namespace PolyDiM

open Spec

theorem refs_flat (d m : Nat) (l : List Nat) : l.flatMap (entityRefs d m) = (List.range (l.length * m)).map fun j => ⟨d, l.getD (j / m) 0, j % m⟩ := by
  rcases Nat.eq_zero_or_pos m with rfl | hm
  · simp [entityRefs]
  induction l with
  | nil => simp
  | cons a l ih =>
    rw [List.flatMap_cons, ih, List.length_cons, show (l.length + 1) * m = m + l.length * m by ring, List.range_add, List.map_append, List.map_map]
    congr 1
    · refine List.map_congr_left fun j hj => ?_
      have hj := List.mem_range.1 hj
      rw [Nat.div_eq_of_lt hj, Nat.mod_eq_of_lt hj]
      rfl
    · refine List.map_congr_left fun j _ => ?_
      simp only [Function.comp_apply, Nat.add_div_left _ hm, Nat.add_mod_left, List.getD_cons_succ]

section
variable {k : Nat} {mesh : PlaneMesh ℝ} {poly : Nat → VemPolygon ℝ} {n : Nat → Nat} {len : Nat → Nat → ℝ} {dir : Nat → Nat → Bool} {nrm : Nat → Nat → ℝ × ℝ}
  {triangle : Nat → Rule (ℝ × ℝ) ℝ} {edge : Nat → Rule ℝ ℝ} {ts ws ss vs : List ℝ} {w v₀ : ℝ} {ref : DfRef2D ℝ} {red : Bool}
  {boundary : Nat → Nat → Option BInfo} {info : Nat → MeshInfo} {D : Nat → DOFsData} {count : CountData}

/-- The reference of DOF `j` of the velocity on cell `c`, with its field. -/
def velRef (k : Nat) (mesh : PlaneMesh ℝ) (n : Nat → Nat) (c j : Nat) : Nat × GDOF :=
  if j < n c + n c * (k - 1) then (0, borderRef k mesh n c j)
  else if j < 2 * (n c + n c * (k - 1)) then (1, borderRef k mesh n c (j - (n c + n c * (k - 1))))
  else (2, ⟨2, c, j - 2 * (n c + n c * (k - 1))⟩)

theorem flowVelocity_eq (free strong : List ℝ) (c j : Nat) : flowVelocity k mesh n D free strong c j = fieldValue D free strong (velRef k mesh n c j) := by
  unfold flowVelocity velRef
  split_ifs <;> rfl

theorem df_numbers (hT : IsDfTables k triangle edge ts ws w ss vs v₀) (href : dfRef2D red triangle edge k = .ok ref) :
    (∀ h < 2, dfNum ref h 0 = 1 ∧ dfNum ref h 1 = k - 1 ∧ dfNum ref h 2 = 0) ∧
    (dfNum ref 2 0 = 0 ∧ dfNum ref 2 1 = 0 ∧ dfNum ref 2 2 = (k - 2) * (k - 1) / 2 + ((divDegree red k + 1) * (divDegree red k + 2) / 2 - 1)) ∧
    dfNum ref 3 0 = 0 ∧ dfNum ref 3 1 = 0 ∧ dfNum ref 3 2 = (divDegree red k + 1) * (divDegree red k + 2) / 2 := by
  obtain ⟨h1, h2, h3, h4, h5, h6⟩ := ref_edge hT href
  have hk := hT.two
  have hb := hT.below
  refine ⟨fun h hh => ?_, ⟨rfl, rfl, ?_⟩, rfl, rfl, ?_⟩
  · simp [dfNum, hh, h4]
  · have e : dfNum ref 2 2 = u32 (ref.dofsBig + ref.dofsDiv) := rfl
    have hm : (divDegree red k + 1) * (divDegree red k + 2) ≤ 65535 * 65536 := by
      have : divDegree red k ≤ 65534 := by unfold divDegree; split_ifs <;> omega
      exact Nat.mul_le_mul (by omega) (by omega)
    have hB : (k - 2) * (k - 1) ≤ 65533 * 65534 := Nat.mul_le_mul (by omega) (by omega)
    have t1 : tri (k - 2) = (k - 2) * (k - 1) / 2 := by
      have := two_tri (k - 2)
      rw [show k - 2 + 1 = k - 1 by omega] at this
      omega
    have t2 : tri (divDegree red k + 1) = (divDegree red k + 1) * (divDegree red k + 2) / 2 := (tri_div _).symm
    rw [e, h5, h6, t1, t2]
    unfold u32
    omega
  · have e : dfNum ref 3 2 = if ref.reduced then 1 else u32 (ref.order * u32 (ref.order + 1)) / 2 := rfl
    rw [e, h1, h3]
    cases red
    · have hB : k * (k + 1) ≤ 65535 * 65536 := Nat.mul_le_mul (by omega) (by omega)
      have u1 : u32 (k + 1) = k + 1 := Nat.mod_eq_of_lt (by omega)
      have u2 : u32 (k * (k + 1)) = k * (k + 1) := Nat.mod_eq_of_lt (by omega)
      have d1 : divDegree false k = k - 1 := rfl
      rw [if_neg (by simp), u1, u2, d1, show k - 1 + 1 = k by omega, show k - 1 + 2 = k + 1 by omega]
    · rw [if_pos rfl, show divDegree true k = 0 from rfl]

/-- The DOFs of cell `c`, in order. -/
theorem df_list (hM : IsPlaneMesh 1 mesh poly n len dir nrm) (hT : IsDfTables k triangle edge ts ws w ss vs v₀) (href : dfRef2D red triangle edge k = .ok ref)
    {c : Nat} (hc : c < mesh.num2D) :
    quadList (dfNum ref) mesh.topo c = (List.range (numVelocityDofs k (divDegree red k) (n c))).map (velRef k mesh n c)
      ++ (List.range ((divDegree red k + 1) * (divDegree red k + 2) / 2)).map fun j => (3, ⟨2, c, j⟩) := by
  obtain ⟨h01, ⟨h20, h21, h22⟩, h30, h31, h32⟩ := df_numbers hT href
  have hvl := hM.vertices c hc
  have hel := hM.edges c hc
  have hb : ∀ h < 2, (fieldList (dfNum ref h) mesh.topo c).map (fun r => (h, r)) = (List.range (n c + n c * (k - 1))).map fun j => (h, borderRef k mesh n c j) := by
    intro h hh
    obtain ⟨g0, g1, g2⟩ := h01 h hh
    rw [fieldList, g0, g1, g2, refs_flat, refs_flat, hvl, hel, List.range_add, List.map_append, List.map_append, List.map_append, List.map_map, List.map_map, List.map_map,
      entityRefs, List.range_zero, List.map_nil, List.map_nil, List.append_nil, mul_one]
    congr 1
    · refine List.map_congr_left fun j hj => ?_
      simp only [Function.comp_apply, borderRef, if_pos (List.mem_range.1 hj), Nat.div_one, Nat.mod_one]
      rfl
    · refine List.map_congr_left fun j hj => ?_
      simp only [Function.comp_apply, borderRef, if_neg (show ¬ n c + j < n c by omega), Nat.add_sub_cancel_left]
      rfl
  have hi : ∀ h, dfNum ref h 0 = 0 → dfNum ref h 1 = 0 → (fieldList (dfNum ref h) mesh.topo c).map (fun r => (h, r)) = (List.range (dfNum ref h 2)).map fun j => (h, ⟨2, c, j⟩) := by
    intro h g0 g1
    rw [fieldList, g0, g1, refs_flat, refs_flat, mul_zero, mul_zero]
    simp [entityRefs]
  have hvel : ∀ b i, b = n c + n c * (k - 1) → (List.range (2 * b + i)).map (velRef k mesh n c) = (List.range b).map (fun j => (0, borderRef k mesh n c j))
      ++ (List.range b).map (fun j => (1, borderRef k mesh n c j)) ++ (List.range i).map fun j => (2, ⟨2, c, j⟩) := by
    intro b i hb
    rw [List.range_add, two_mul, List.range_add, List.map_append, List.map_append, List.map_map, List.map_map]
    congr 1
    · congr 1
      · refine List.map_congr_left fun j hj => ?_
        rw [velRef, ← hb, if_pos (List.mem_range.1 hj)]
      · refine List.map_congr_left fun j hj => ?_
        have hj := List.mem_range.1 hj
        simp only [Function.comp_apply, velRef, ← hb]
        rw [if_neg (by omega), if_pos (by omega), Nat.add_sub_cancel_left]
    · refine List.map_congr_left fun j hj => ?_
      simp only [Function.comp_apply, velRef, ← hb]
      rw [if_neg (by omega), if_neg (by omega), two_mul, Nat.add_sub_cancel_left]
  rw [quadList, show List.range 4 = [0, 1, 2, 3] from rfl, List.flatMap_cons, List.flatMap_cons, List.flatMap_cons, List.flatMap_cons, List.flatMap_nil, List.append_nil,
    hb 0 (by norm_num), hb 1 (by norm_num), hi 2 h20 h21, hi 3 h30 h31, h22, h32, numVelocityDofs, Nat.add_assoc, hvel _ _ rfl]
  simp only [List.append_assoc]

/-- A function on the DOFs of a cell, by position. -/
theorem onRefs_velocity (hM : IsPlaneMesh 1 mesh poly n len dir nrm) (hT : IsDfTables k triangle edge ts ws w ss vs v₀) (href : dfRef2D red triangle edge k = .ok ref)
    {c : Nat} (hc : c < mesh.num2D) (f : Nat × GDOF → ℝ) {j : Nat} (hj : j < numVelocityDofs k (divDegree red k) (n c)) :
    onRefs (quadList (dfNum ref) mesh.topo c) f j = f (velRef k mesh n c j) := by
  rw [df_list hM hT href hc, onRefs, List.getElem?_append_left (by simpa using hj), List.getElem?_map, List.getElem?_range hj]
  rfl

theorem onRefs_pressure (hM : IsPlaneMesh 1 mesh poly n len dir nrm) (hT : IsDfTables k triangle edge ts ws w ss vs v₀) (href : dfRef2D red triangle edge k = .ok ref)
    {c : Nat} (hc : c < mesh.num2D) (f : Nat × GDOF → ℝ) {j : Nat} (hj : j < (divDegree red k + 1) * (divDegree red k + 2) / 2) :
    onRefs (quadList (dfNum ref) mesh.topo c) f (numVelocityDofs k (divDegree red k) (n c) + j) = f (3, ⟨2, c, j⟩) := by
  rw [df_list hM hT href hc, onRefs, List.getElem?_append_right (by simp), List.length_map, List.length_range, Nat.add_sub_cancel_left, List.getElem?_map, List.getElem?_range hj]
  rfl

theorem df_list_length (hM : IsPlaneMesh 1 mesh poly n len dir nrm) (hT : IsDfTables k triangle edge ts ws w ss vs v₀) (href : dfRef2D red triangle edge k = .ok ref)
    {c : Nat} (hc : c < mesh.num2D) : (quadList (dfNum ref) mesh.topo c).length
      = numVelocityDofs k (divDegree red k) (n c) + (divDegree red k + 1) * (divDegree red k + 2) / 2 := by
  rw [df_list hM hT href hc]
  simp

theorem df_requested (hs : IsDfSetup ref mesh boundary info D count) {h : Nat} (hh : h < 4) : totalRequested (info h) 2 < 2 ^ 32 ∧
    (D h).counters.boundary = requestedOn (info h) 2 (fun t => t = .weak ∨ t = .robin) ∧ (D h).counters.boundary ≤ (D h).counters.dofs ∧
    (D h).counters.dofs + (D h).counters.strongs = totalRequested (info h) 2 := by
  have hsm := hs.small
  have := Finset.single_le_sum (f := fun h => totalRequested (info h) 2) (fun _ _ => Nat.zero_le _) (Finset.mem_range.2 hh)
  have hle : totalRequested (info h) 2 < 2 ^ 32 := by omega
  obtain ⟨-, h1, -, h2, h3⟩ := C03_counters 2 (info h) mesh.topo (D h) (hs.dofs h hh) hle
  exact ⟨hle, h1, by omega, h3⟩

/-- The handlers of the four fields. -/
theorem df_quad (hs : IsDfSetup ref mesh boundary info D count) : Quad (dfNum ref) mesh.topo info D := by
  have hsm := hs.small
  refine ⟨fun h hh => field_handler (hs.infos h hh) (hs.dofs h hh) (df_requested hs hh).1, ?_, ?_⟩
  · refine lt_of_le_of_lt (Nat.add_le_add_right (Finset.sum_le_sum fun h hh => ?_) 1) hsm
    have := (df_requested hs (Finset.mem_range.1 hh)).2.2.2
    omega
  · refine lt_of_le_of_lt (Finset.sum_le_sum fun h hh => ?_) (lt_of_le_of_lt (Nat.le_succ _) hsm)
    have := (df_requested hs (Finset.mem_range.1 hh)).2.2.2
    omega

/-- The boundary types of a field. -/
theorem df_types (hs : IsDfSetup ref mesh boundary info D count) {h : Nat} (hh : h < 4) {d : Nat} (hd : d ≤ 2) :
    (∀ x ∈ (info h).numDOFs d, x = dfNum ref h d) ∧ ((info h).numDOFs d).length = ((info h).bInfo d).length ∧ ((info h).bInfo d).length = (mesh.topo.markers d).length ∧
      (2 ≤ h → ∀ b ∈ (info h).bInfo d, b.type = .none) := by
  obtain ⟨-, -, hinfo⟩ := C10_constant_info 2 mesh.topo ⟨dfNum ref h, dfBoundary boundary h⟩
  obtain ⟨hinfo, -⟩ := hinfo _ (hs.infos h hh)
  obtain ⟨h1, h2, h3⟩ := hinfo d hd
  refine ⟨fun x hx => ?_, h1.trans h2.symm, h2, fun h2h b hb => ?_⟩
  · obtain ⟨i, hi⟩ := List.mem_iff_getElem?.1 hx
    have hil : i < (mesh.topo.markers d).length := h1 ▸ (List.getElem?_eq_some_iff.1 hi).1
    have := (h3 i _ (List.getElem?_eq_getElem hil)).1
    rw [hi] at this
    exact Option.some.inj this
  · obtain ⟨i, hi⟩ := List.mem_iff_getElem?.1 hb
    have hil : i < (mesh.topo.markers d).length := h2 ▸ (List.getElem?_eq_some_iff.1 hi).1
    have := (h3 i _ (List.getElem?_eq_getElem hil)).2
    rw [hi, show (⟨dfNum ref h, dfBoundary boundary h⟩ : ConstantInfo).boundary = dfBoundary boundary h from rfl, dfBoundary, if_neg (by omega)] at this
    rw [Option.some.inj this]

theorem df_opening (hT : IsDfTables k triangle edge ts ws w ss vs v₀) (href : dfRef2D red triangle edge k = .ok ref) (hs : IsDfSetup ref mesh boundary info D count) :
    ∑ h ∈ Finset.range 4, (D h).counters.boundary = 0 ↔ NoOpening info := by
  obtain ⟨h01, -⟩ := df_numbers hT href
  have hk := hT.two
  have hzero : ∀ h < 4, (D h).counters.boundary = 0 ↔ ∀ d ≤ 2, ∀ b ∈ (info h).bInfo d, b.type = .weak ∨ b.type = .robin → dfNum ref h d = 0 := by
    intro h hh
    rw [(df_requested hs hh).2.1, requestedOn, List.sum_eq_zero_iff]
    constructor
    · intro H d hd b hb ht
      have := H _ (List.mem_map.2 ⟨d, List.mem_range.2 (by omega), rfl⟩)
      rw [List.sum_eq_zero_iff] at this
      obtain ⟨h1, h2, -⟩ := df_types hs hh hd
      obtain ⟨i, hi, hb⟩ := List.getElem_of_mem hb
      have := this _ (List.mem_map.2 ⟨(((info h).numDOFs d)[i]'(by omega), ((info h).bInfo d)[i]), List.mem_iff_getElem.2 ⟨i, by simp; omega, by simp⟩, rfl⟩)
      dsimp only at this
      rw [hb, if_pos (by simpa using ht)] at this
      rw [← this]
      exact (h1 _ (List.getElem_mem _)).symm
    · intro H x hx
      obtain ⟨d, hd, rfl⟩ := List.mem_map.1 hx
      have hd : d ≤ 2 := by have := List.mem_range.1 hd; omega
      refine List.sum_eq_zero_iff.2 fun y hy => ?_
      obtain ⟨nb, hnb, rfl⟩ := List.mem_map.1 hy
      have hm := List.of_mem_zip hnb
      split_ifs with ht
      · rw [(df_types hs hh hd).1 _ hm.1]
        exact H d hd _ hm.2 (by simpa using ht)
      · rfl
  rw [Finset.sum_eq_zero_iff]
  constructor
  · intro H h hh d hd b hb
    have := (hzero h (by omega)).1 (H h (Finset.mem_range.2 (by omega))) d (by omega) b hb
    have hpos : dfNum ref h d ≠ 0 := by
      obtain ⟨g0, g1, -⟩ := h01 h hh
      interval_cases d
      · omega
      · omega
    exact ⟨fun h => hpos (this (Or.inl h)), fun h => hpos (this (Or.inr h))⟩
  · intro H h hh
    have hh := Finset.mem_range.1 hh
    refine (hzero h hh).2 fun d hd b hb ht => ?_
    by_cases h2 : h < 2
    · rcases (show d < 2 ∨ d = 2 by omega) with h3 | rfl
      · obtain ⟨g1, g2⟩ := H h h2 d h3 b hb
        rcases ht with ht | ht
        · exact absurd ht g1
        · exact absurd ht g2
      · exact (h01 h h2).2.2
    · have := (df_types hs hh hd).2.2.2 (by omega) b hb
      rw [this] at ht
      simp at ht

/-- The count of the DOFs. -/
theorem df_count (hT : IsDfTables k triangle edge ts ws w ss vs v₀) (href : dfRef2D red triangle edge k = .ok ref) (hs : IsDfSetup ref mesh boundary info D count) :
    ∃ b, count = ⟨b, fieldOffset D 4 + (if b = 0 then 1 else 0), strongOffset D 4, (List.range 4).map (fieldOffset D), (List.range 4).map (strongOffset D)⟩ ∧
      (b = 0 ↔ NoOpening info) := by
  have H := df_quad hs
  obtain ⟨b, hb, hbv⟩ := H.count
  have hlt : ∑ h ∈ Finset.range 4, (D h).counters.boundary < 2 ^ 32 := by
    refine lt_of_le_of_lt (Finset.sum_le_sum fun h hh => (df_requested hs (Finset.mem_range.1 hh)).2.2.1) ?_
    have := H.dofs
    unfold fieldOffset at this
    omega
  rw [Nat.mod_eq_of_lt hlt] at hbv
  refine ⟨b, ?_, by rw [hbv]; exact df_opening hT href hs⟩
  have hc := hs.counted
  unfold dfCount at hc
  rw [hb, except_ok_bind] at hc
  dsimp only at hc
  have hu : u32 (fieldOffset D 4 + 1) = fieldOffset D 4 + 1 := Nat.mod_eq_of_lt H.dofs
  rw [← Except.ok.inj hc]
  split_ifs with h0
  · rw [hu]
  · rfl

end

end PolyDiM
