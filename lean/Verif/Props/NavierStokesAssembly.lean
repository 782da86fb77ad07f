import Verif.Model.NavierStokesAssembly
import Verif.Spec.NavierStokesAssembly
import Verif.Props.NavierStokesDf2D
import Verif.Props.NavierStokesLoop
import Verif.Lemmas.BrinkmanRefs
import Verif.Lemmas.BrinkmanExample
import Verif.Props.AssemblerDf2D

/-!
# C176: the convective term on the mesh
-/

namespace PolyDiM

open Spec

variable {num : Nat → Nat → Nat} {mesh : Mesh} {info : Nat → MeshInfo} {D : Nat → DOFsData}

/-- The fields of the speed on cell `c`. -/
def speedFields (num : Nat → Nat → Nat) (mesh : Mesh) (D : Nat → DOFsData) (c : Nat) : Fields :=
  ⟨[D 0, D 1, D 2], (List.range 4).map (localOffset num mesh c), (List.range 4).map (fieldOffset D), (List.range 4).map (strongOffset D)⟩

theorem fieldSlots_range {data : DOFsData} {dim c oD oS lo : Nat} {a : Slot} (ha : a ∈ fieldSlots data dim c oD oS lo) : lo ≤ a.pos ∧ a.pos < lo + (cellList data dim c).length := by
  unfold fieldSlots at ha
  obtain ⟨⟨r, k⟩, hk, rfl⟩ := List.mem_map.1 ha
  have := List.mem_zipIdx_iff_getElem?.1 hk
  obtain ⟨h, -⟩ := List.getElem?_eq_some_iff.1 this
  rw [slot_pos]
  exact ⟨by omega, by dsimp only; omega⟩

theorem speed_slots (H : Quad num mesh info D) {c : Nat} (hc : c < (mesh.markers 2).length) : ∃ R, slots (quadFields num mesh D c) 2 c = slots (speedFields num mesh D c) 2 c ++ R ∧
    (∀ a ∈ slots (speedFields num mesh D c) 2 c, a.pos < localOffset num mesh c 3) ∧ ∀ a ∈ R, localOffset num mesh c 3 ≤ a.pos := by
  have hl : ∀ h < 4, cellList (D h) 2 c = fieldList (num h) mesh c := fun h hh => (H.field h hh).list c hc
  have r4 : List.range 4 = [0, 1, 2, 3] := rfl
  refine ⟨fieldSlots (D 3) 2 c (fieldOffset D 3) (strongOffset D 3) (localOffset num mesh c 3), ?_, ?_, fun a ha => (fieldSlots_range ha).1⟩
  · simp [slots, quadFields, speedFields, r4]
  · intro a ha
    simp only [slots, speedFields, r4, List.map_cons, List.map_nil, List.zipIdx_cons, List.zipIdx_nil, List.flatMap_cons, List.flatMap_nil, List.append_nil, List.mem_append] at ha
    simp only [localOffset, Finset.sum_range_succ, Finset.sum_range_zero, zero_add, ← hl 0 (by norm_num), ← hl 1 (by norm_num), ← hl 2 (by norm_num)]
    rcases ha with ha | ha | ha
    · have := (fieldSlots_range ha).2
      simp [localOffset] at this
      omega
    · have := (fieldSlots_range ha).2
      simp [localOffset, Finset.sum_range_succ, ← hl 0 (by norm_num)] at this
      omega
    · have := (fieldSlots_range ha).2
      simp [localOffset, Finset.sum_range_succ, ← hl 0 (by norm_num), ← hl 1 (by norm_num)] at this
      omega

/-- A matrix of the speed, with zeros for the pressure. -/
noncomputable def padMat (n M : Nat) (A : DMat ℝ) : DMat ℝ := ⟨n, n, fun a b => if a < M ∧ b < M then A.ent a b else 0⟩

/-- A vector of the speed, with zeros for the pressure. -/
noncomputable def padVec (n M : Nat) (r : List ℝ) : List ℝ := (List.range n).map fun a => if a < M then r.getD a 0 else 0

theorem padVec_getD {n M : Nat} (hM : M ≤ n) (r : List ℝ) (a : Nat) : (padVec n M r).getD a 0 = if a < M then r.getD a 0 else 0 := by
  unfold padVec
  by_cases h : a < n
  · rw [List.getD_eq_getElem?_getD, List.getElem?_map, List.getElem?_range h]
    rfl
  · rw [List.getD_eq_getElem?_getD, List.getElem?_eq_none (by simpa using h), if_neg (by omega)]
    rfl

theorem pad_lhs (H : Quad num mesh info D) {c : Nat} (hc : c < (mesh.markers 2).length) (n : Nat) (A : DMat ℝ) (r r' : Option (List ℝ)) (t : DType) (i j : Nat) :
    lhsContribution 2 ⟨c, speedFields num mesh D c, some (speedFields num mesh D c, A.toLMat), r⟩ t i j
      = lhsContribution 2 ⟨c, quadFields num mesh D c, some (quadFields num mesh D c, (padMat n (localOffset num mesh c 3) A).toLMat), r'⟩ t i j := by
  obtain ⟨R, h1, h2, h3⟩ := speed_slots H hc
  unfold lhsContribution
  dsimp only
  rw [h1]
  simp only [List.map_append, List.sum_append, DMat.toLMat, padMat]
  have z1 : ∀ a : Slot, (R.map fun b => if a.type = .dof ∧ b.type = t ∧ a.idx = i ∧ b.idx = j then (if a.pos < localOffset num mesh c 3 ∧ b.pos < localOffset num mesh c 3 then A.ent a.pos b.pos else 0) else 0).sum = 0 := by
    intro a
    refine list_sum_zero _ _ fun b hb => ?_
    rw [if_neg (c := a.pos < localOffset num mesh c 3 ∧ b.pos < localOffset num mesh c 3) (by have := h3 b hb; omega), ite_self]
  have z2 : (R.map fun a => ((slots (speedFields num mesh D c) 2 c).map fun b => if a.type = .dof ∧ b.type = t ∧ a.idx = i ∧ b.idx = j then (if a.pos < localOffset num mesh c 3 ∧ b.pos < localOffset num mesh c 3 then A.ent a.pos b.pos else 0) else 0).sum).sum = 0 := by
    refine list_sum_zero _ _ fun a ha => list_sum_zero _ _ fun b hb => ?_
    rw [if_neg (c := a.pos < localOffset num mesh c 3 ∧ b.pos < localOffset num mesh c 3) (by have := h3 a ha; omega), ite_self]
  simp only [z1, add_zero, z2]
  congr 1
  refine List.map_congr_left fun a ha => ?_
  congr 1
  refine List.map_congr_left fun b hb => ?_
  rw [if_pos (c := a.pos < localOffset num mesh c 3 ∧ b.pos < localOffset num mesh c 3) ⟨h2 a ha, h2 b hb⟩]

theorem pad_rhs (H : Quad num mesh info D) {c : Nat} (hc : c < (mesh.markers 2).length) {n : Nat} (hn : localOffset num mesh c 3 ≤ n) (r : List ℝ) (A A' : Option (Fields × LMat ℝ)) (i : Nat) :
    rhsContribution 2 ⟨c, speedFields num mesh D c, A, some r⟩ i = rhsContribution 2 ⟨c, quadFields num mesh D c, A', some (padVec n (localOffset num mesh c 3) r)⟩ i := by
  obtain ⟨R, h1, h2, h3⟩ := speed_slots H hc
  unfold rhsContribution
  dsimp only
  rw [h1]
  simp only [List.map_append, List.sum_append, padVec_getD hn]
  rw [list_sum_zero R _ fun b hb => by rw [if_neg (c := b.pos < localOffset num mesh c 3) (by have := h3 b hb; omega), ite_self], add_zero]
  congr 1
  refine List.map_congr_left fun a ha => ?_
  rw [if_pos (c := a.pos < localOffset num mesh c 3) (h2 a ha)]

/-- The matrices and vectors of the speed assembled: like those of all fields, with zeros. -/
theorem speed_assemble (H : Quad num mesh info D) (cells : List Nat) (hcells : ∀ c ∈ cells, c < (mesh.markers 2).length)
    (hsmall : ∀ c ∈ cells, (quadList num mesh c).length < 2 ^ 32) (A : Nat → DMat ℝ) (b : Nat → List ℝ)
    (hA : ∀ c ∈ cells, (A c).rows = localOffset num mesh c 3 ∧ (A c).cols = localOffset num mesh c 3) (hb : ∀ c ∈ cells, (b c).length = localOffset num mesh c 3) :
    ∃ S, assembleAll 2 .empty (cells.map fun c => (⟨c, speedFields num mesh D c, some (speedFields num mesh D c, (A c).toLMat), some (b c)⟩ : Call ℝ)) = .ok S ∧
      (∀ free strong : List ℝ, fieldOffset D 4 ≤ free.length → strong.length = strongOffset D 4 → ∀ i,
        ∑ j ∈ Finset.range free.length, entry S.lhsDOFs i j * free.getD j 0 + ∑ j ∈ Finset.range strong.length, entry S.lhsStrongs i j * strong.getD j 0
          = (cells.map fun c => ∑ j ∈ Finset.range (localOffset num mesh c 3),
                onRefs (quadList num mesh c) (rowOf D i) j * ∑ r ∈ Finset.range (localOffset num mesh c 3), (A c).ent j r * Quad.values num mesh D free strong c r).sum) ∧
      ∀ i, ventry S.rhs i = (cells.map fun c => ∑ j ∈ Finset.range (localOffset num mesh c 3), onRefs (quadList num mesh c) (rowOf D i) j * (b c).getD j 0).sum := by
  have hle : ∀ c, localOffset num mesh c 3 ≤ (quadList num mesh c).length := fun c => by
    rw [quadList_length, localOffset, localOffset, Finset.sum_range_succ _ 3]; omega
  obtain ⟨S4, h4, hrows, hrhs⟩ := H.assemble cells hcells hsmall (fun c => padMat (quadList num mesh c).length (localOffset num mesh c 3) (A c))
    (fun c => padVec (quadList num mesh c).length (localOffset num mesh c 3) (b c)) (fun c _ => ⟨rfl, rfl⟩) (fun c _ => by simp [padVec])
  have hvalid : ∀ c ∈ cells, (∀ d ∈ [D 0, D 1, D 2], (globalsAt d 2 c).isSome) := fun c hc d hd => by
    simp only [List.mem_cons, List.not_mem_nil, or_false] at hd
    rcases hd with rfl | rfl | rfl
    · exact (H.field 0 (by norm_num)).exist c (hcells c hc)
    · exact (H.field 1 (by norm_num)).exist c (hcells c hc)
    · exact (H.field 2 (by norm_num)).exist c (hcells c hc)
  have hsub : ∀ c ∈ cells, ∀ a ∈ slots (speedFields num mesh D c) 2 c, a ∈ slots (quadFields num mesh D c) 2 c ∧ a.pos < localOffset num mesh c 3 := by
    intro c hc a ha
    obtain ⟨R, h1, h2, -⟩ := speed_slots H (hcells c hc)
    exact ⟨by rw [h1]; exact List.mem_append_left _ ha, h2 a ha⟩
  have l1 : ∀ c, (speedFields num mesh D c).dofs.length ≤ (speedFields num mesh D c).localOffsets.length := fun c => by simp [speedFields]
  have l2 : ∀ c, (speedFields num mesh D c).dofs.length ≤ (speedFields num mesh D c).globalOffsetsDOFs.length := fun c => by simp [speedFields]
  have l3 : ∀ c, (speedFields num mesh D c).dofs.length ≤ (speedFields num mesh D c).globalOffsetsStrongs.length := fun c => by simp [speedFields]
  obtain ⟨S, hok⟩ : ∃ S, assembleAll 2 .empty (cells.map fun c => (⟨c, speedFields num mesh D c, some (speedFields num mesh D c, (A c).toLMat), some (b c)⟩ : Call ℝ)) = .ok S := by
    refine ⟨_, (assembleAll_iff 2 _ _ _).2 ⟨?_, rfl⟩⟩
    intro q hq
    obtain ⟨c, hc, rfl⟩ := List.mem_map.1 hq
    refine ⟨⟨hvalid c hc, l2 c, l1 c⟩, fun a ha => ⟨H.known (hcells c hc) (hsub c hc a ha).1, fun _ => ⟨fun v hv => ?_, fun T B hTB => ?_⟩⟩⟩
    · simp only [Option.some.injEq] at hv
      rw [← hv, hb c hc]
      exact (hsub c hc a ha).2
    · simp only [Option.some.injEq, Prod.mk.injEq] at hTB
      obtain ⟨rfl, rfl⟩ := hTB
      refine ⟨⟨hvalid c hc, l2 c, l1 c, l3 c⟩, fun t ht' => ⟨H.known (hcells c hc) (hsub c hc t ht').1, ?_, ?_⟩⟩
      · show a.pos < (A c).rows
        rw [(hA c hc).1]; exact (hsub c hc a ha).2
      · show t.pos < (A c).cols
        rw [(hA c hc).2]; exact (hsub c hc t ht').2
  have hrow : ∀ q ∈ (cells.map fun c => (⟨c, speedFields num mesh D c, some (speedFields num mesh D c, (A c).toLMat), some (b c)⟩ : Call ℝ)),
      ∀ a ∈ Spec.slots q.test 2 q.cell, a.type = .dof → a.idx < 2 ^ 32 := by
    intro q hq a ha hdof
    obtain ⟨c, hc, rfl⟩ := List.mem_map.1 hq
    have := H.dofs
    have := H.idx_free (hcells c hc) (hsub c hc a ha).1 hdof
    omega
  have hrow4 : ∀ q ∈ (cells.map fun c => (⟨c, quadFields num mesh D c, some (quadFields num mesh D c, (padMat (quadList num mesh c).length (localOffset num mesh c 3) (A c)).toLMat),
      some (padVec (quadList num mesh c).length (localOffset num mesh c 3) (b c))⟩ : Call ℝ)), ∀ a ∈ Spec.slots q.test 2 q.cell, a.type = .dof → a.idx < 2 ^ 32 := by
    intro q hq a ha hdof
    obtain ⟨c, hc, rfl⟩ := List.mem_map.1 hq
    have := H.dofs
    have := H.idx_free (hcells c hc) ha hdof
    omega
  obtain ⟨e1, e2, e3⟩ := C14_assembly 2 _ _ _ hok hrow
  obtain ⟨f1, f2, f3⟩ := C14_assembly 2 _ _ _ h4 hrow4
  have g1 : ∀ i j, entry S.lhsDOFs i j = entry S4.lhsDOFs i j := fun i j => by
    rw [e1, f1, List.map_map, List.map_map]
    congr 2
    exact List.map_congr_left fun c hc => pad_lhs H (hcells c hc) _ (A c) _ _ _ i j
  have g2 : ∀ i j, entry S.lhsStrongs i j = entry S4.lhsStrongs i j := fun i j => by
    rw [e2, f2, List.map_map, List.map_map]
    congr 2
    exact List.map_congr_left fun c hc => pad_lhs H (hcells c hc) _ (A c) _ _ _ i j
  have g3 : ∀ i, ventry S.rhs i = ventry S4.rhs i := fun i => by
    rw [e3, f3, List.map_map, List.map_map]
    congr 2
    exact List.map_congr_left fun c hc => pad_rhs H (hcells c hc) (hle c) (b c) _ _ i
  refine ⟨S, hok, fun free strong hf hs i => ?_, fun i => ?_⟩
  · simp only [g1, g2]
    rw [hrows free strong hf hs i]
    congr 1
    refine List.map_congr_left fun c _ => ?_
    rw [← Finset.sum_subset (Finset.range_subset_range.2 (hle c))]
    · refine Finset.sum_congr rfl fun j hj => ?_
      congr 1
      unfold apply padMat
      dsimp only
      rw [← Finset.sum_subset (Finset.range_subset_range.2 (hle c))]
      · exact Finset.sum_congr rfl fun r hr => by rw [if_pos ⟨Finset.mem_range.1 hj, Finset.mem_range.1 hr⟩]
      · intro r _ hr
        rw [if_neg (fun h => hr (Finset.mem_range.2 h.2)), zero_mul]
    · intro j _ hj
      unfold apply padMat
      dsimp only
      rw [Finset.sum_eq_zero fun r _ => by rw [if_neg (fun h => hj (Finset.mem_range.2 h.1)), zero_mul], mul_zero]
  · rw [g3, hrhs]
    congr 1
    refine List.map_congr_left fun c _ => ?_
    rw [← Finset.sum_subset (Finset.range_subset_range.2 (hle c))]
    · exact Finset.sum_congr rfl fun j hj => by rw [padVec_getD (hle c), if_pos (Finset.mem_range.1 hj)]
    · intro j _ hj
      rw [padVec_getD (hle c), if_neg (fun h => hj (Finset.mem_range.2 h)), mul_zero]

/-- The list of all DOFs of a cell begins with those of the speed. -/
theorem speedRefs_prefix (H : Quad num mesh info D) {c : Nat} (hc : c < (mesh.markers 2).length) :
    (speedRefs D c).length = localOffset num mesh c 3 ∧ ∀ j < localOffset num mesh c 3, (quadList num mesh c)[j]? = (speedRefs D c)[j]? := by
  have hl : ∀ h < 4, cellList (D h) 2 c = fieldList (num h) mesh c := fun h hh => (H.field h hh).list c hc
  have r4 : List.range 4 = [0, 1, 2, 3] := rfl
  have r3 : List.range 3 = [0, 1, 2] := rfl
  have e : quadList num mesh c = speedRefs D c ++ (fieldList (num 3) mesh c).map fun r => (3, r) := by
    simp [quadList, speedRefs, r4, r3, hl 0, hl 1, hl 2]
  have hlen : (speedRefs D c).length = localOffset num mesh c 3 := by
    simp [speedRefs, r3, localOffset, Finset.sum_range_succ, hl 0, hl 1, hl 2, Nat.add_assoc]
  exact ⟨hlen, fun j hj => by rw [e, List.getElem?_append_left (by omega)]⟩

theorem globalValue_with (H : Quad num mesh info D) {N : Nat} (hN : fieldOffset D 4 ≤ N) (u g : List ℝ) {x : Nat × GDOF} (hx : x.1 < 4) :
    globalValue D N (withStrong N (fun j => u.getD j 0) fun j => g.getD j 0) x = fieldValue D u g x := by
  have hd : ∀ (l : List ℝ) (m i : Nat), (l.drop m).getD i 0 = l.getD (m + i) 0 := fun l m i => by
    rw [List.getD_eq_getElem?_getD, List.getElem?_drop, List.getD_eq_getElem?_getD]
  unfold globalValue fieldValue valueOf
  cases hl : lookup (D x.1) x.2 with
  | none => rfl
  | some y =>
    obtain ⟨t, i⟩ := y
    cases t with
    | unknwon => rfl
    | dof =>
      have h1 := (H.field x.1 hx).free x.2 i hl
      have h2 := (offset_le D hx).1
      simp only [withStrong, hd]
      rw [if_pos (by omega)]
    | strong =>
      simp only [withStrong, hd]
      rw [if_neg (by omega)]
      congr 1
      omega

/-- The coefficients of the speed on a cell. -/
noncomputable def speedCoef (D : Nat → DOFsData) (N c : Nat) (v : Nat → ℝ) (j : Nat) : ℝ := ((speedRefs D c)[j]?).elim 0 (globalValue D N v)

theorem speedCoef_linear (D : Nat → DOFsData) (N c : Nat) (r : ℝ) (v v' : Nat → ℝ) (j : Nat) :
    speedCoef D N c (v + v') j = speedCoef D N c v j + speedCoef D N c v' j ∧ speedCoef D N c (r • v) j = r * speedCoef D N c v j := by
  unfold speedCoef
  cases (speedRefs D c)[j]? with
  | none => simp
  | some x =>
    simp only [Option.elim_some, globalValue]
    cases lookup (D x.1) x.2 with
    | none => simp
    | some y =>
      obtain ⟨t, i⟩ := y
      cases t <;> simp

section

variable {N n form : Nat} {Q : Nat → Nat} {w : Nat → Nat → ℝ} {φ : Nat → Nat → PointField ℝ}

theorem speedForm_first (D : Nat → DOFsData) (N form : Nat) (Q : Nat → Nat) (w : Nat → Nat → ℝ) (φ : Nat → Nat → PointField ℝ) (c : Nat) (v : Nat → ℝ) (u t : PointField ℝ) :
    formOf form (Q c) (w c) (speedOn D N (φ c) c v) u t = ∑ J ∈ Finset.range (speedRefs D c).length, formOf form (Q c) (w c) (φ c J) u t * speedCoef D N c v J :=
  (formOf_linear form (fun j => speedCoef D N c v j) u u t).1

theorem speedForm_second (D : Nat → DOFsData) (N form : Nat) (Q : Nat → Nat) (w : Nat → Nat → ℝ) (φ : Nat → Nat → PointField ℝ) (c : Nat) (v : Nat → ℝ) (u t : PointField ℝ) :
    formOf form (Q c) (w c) u (speedOn D N (φ c) c v) t = ∑ J ∈ Finset.range (speedRefs D c).length, formOf form (Q c) (w c) u (φ c J) t * speedCoef D N c v J :=
  (formOf_linear form (fun j => speedCoef D N c v j) u u t).2.1

/-- The convective form on the mesh is bilinear in the two speeds. -/
theorem meshForm_bilinear (D : Nat → DOFsData) (N n form : Nat) (Q : Nat → Nat) (w : Nat → Nat → ℝ) (φ : Nat → Nat → PointField ℝ) :
    ∃ b : (Nat → ℝ) →ₗ[ℝ] (Nat → ℝ) →ₗ[ℝ] (Nat → ℝ), ∀ v v' i, b v v' i = meshForm D N φ (fun c => formOf form (Q c) (w c)) n v v' i := by
  refine ⟨LinearMap.mk₂ ℝ (fun v v' i => meshForm D N φ (fun c => formOf form (Q c) (w c)) n v v' i) ?_ ?_ ?_ ?_, fun v v' i => rfl⟩
  · intro v1 v2 v'
    funext i
    simp only [Pi.add_apply, meshForm, speedForm_first, (speedCoef_linear D N _ 0 v1 v2 _).1, mul_add, Finset.sum_add_distrib]
  · intro r v v'
    funext i
    simp only [Pi.smul_apply, smul_eq_mul, meshForm, Finset.mul_sum, speedForm_first, (speedCoef_linear D N _ r v v _).2]
    refine Finset.sum_congr rfl fun c _ => Finset.sum_congr rfl fun j _ => Finset.sum_congr rfl fun J _ => ?_
    ring
  · intro v v1 v2
    funext i
    simp only [Pi.add_apply, meshForm, speedForm_second, (speedCoef_linear D N _ 0 v1 v2 _).1, mul_add, Finset.sum_add_distrib]
  · intro r v v'
    funext i
    simp only [Pi.smul_apply, smul_eq_mul, meshForm, Finset.mul_sum, speedForm_second, (speedCoef_linear D N _ r v' v' _).2]
    refine Finset.sum_congr rfl fun c _ => Finset.sum_congr rfl fun j _ => Finset.sum_congr rfl fun J _ => ?_
    ring

variable {ref : DfRef2D ℝ} {mesh : PlaneMesh ℝ} {boundary : Nat → Nat → Option BInfo} {count : CountData}

theorem setup_count (hs : IsDfSetup ref mesh boundary info D count) : fieldOffset D 4 ≤ count.totalDOFs ∧ count.totalStrong = strongOffset D 4 ∧
    count.offsetsDOFs = (List.range 4).map (fieldOffset D) ∧ count.offsetsStrongs = (List.range 4).map (strongOffset D) := by
  have H := df_quad hs
  obtain ⟨b, hb, -⟩ := H.count
  have hc := hs.counted
  unfold dfCount at hc
  rw [hb, except_ok_bind] at hc
  dsimp only at hc
  have hu : u32 (fieldOffset D 4 + 1) = fieldOffset D 4 + 1 := Nat.mod_eq_of_lt H.dofs
  rw [← Except.ok.inj hc]
  split_ifs with h0
  · exact ⟨by dsimp only; omega, rfl, rfl, rfl⟩
  · exact ⟨le_refl _, rfl, rfl, rfl⟩

/-- One cell: what is handed to the assembly. -/
theorem convectionCall_ok (hs : IsDfSetup ref mesh boundary info D count) {c : Nat} (hc : c < mesh.num2D) (hsmall : (quadList (dfNum ref) mesh.topo c).length < 2 ^ 32)
    (hform : form < 2) {spaces : Nat → Except Fault (SpeedSpace ℝ)} {t : SpeedSpace ℝ} (ht : spaces c = .ok t)
    (hT : SpeedTables t.values t.ders t.weights (Q c) (speedRefs D c).length (w c) (φ c)) {g : List ℝ} (hg : g.length = count.totalStrong) {u : List ℝ} (hu : u.length = count.totalDOFs) :
    ∃ (A : DMat ℝ) (b : List ℝ), convectionCall ((List.range 4).map D) count form spaces u g c
        = .ok ⟨c, speedFields (dfNum ref) mesh.topo D c, some (speedFields (dfNum ref) mesh.topo D c, A.toLMat), some b⟩ ∧
      A.rows = localOffset (dfNum ref) mesh.topo c 3 ∧ A.cols = localOffset (dfNum ref) mesh.topo c 3 ∧ b.length = localOffset (dfNum ref) mesh.topo c 3 ∧
      ∀ I < localOffset (dfNum ref) mesh.topo c 3,
        b.getD I 0 = formOf form (Q c) (w c) (speedOn D count.totalDOFs (φ c) c (withStrong count.totalDOFs (fun j => u.getD j 0) fun j => g.getD j 0))
          (speedOn D count.totalDOFs (φ c) c (withStrong count.totalDOFs (fun j => u.getD j 0) fun j => g.getD j 0)) (φ c I) ∧
        ∀ J, A.ent I J = formOf form (Q c) (w c) (speedOn D count.totalDOFs (φ c) c (withStrong count.totalDOFs (fun j => u.getD j 0) fun j => g.getD j 0)) (φ c J) (φ c I)
          + formOf form (Q c) (w c) (φ c J) (speedOn D count.totalDOFs (φ c) c (withStrong count.totalDOFs (fun j => u.getD j 0) fun j => g.getD j 0)) (φ c I) := by
  have H := df_quad hs
  obtain ⟨h1, h2, h3, h4⟩ := setup_count hs
  obtain ⟨hlen, hpre⟩ := speedRefs_prefix H hc
  obtain ⟨y, hy, hyl, hyv⟩ := H.local_values (c := c) hc (free := u) (strong := g) (by omega) (by omega)
  set M := localOffset (dfNum ref) mesh.topo c 3 with hM
  have htot : (quadList (dfNum ref) mesh.topo c).length = M + (fieldList (dfNum ref 3) mesh.topo c).length := by
    rw [quadList_length, localOffset, Finset.sum_range_succ, hM, localOffset]
  have hcoef : ∀ j < M, y.getD j 0 = speedCoef D count.totalDOFs c (withStrong count.totalDOFs (fun j => u.getD j 0) fun j => g.getD j 0) j := by
    intro j hj
    rw [hyv, onRefs, hpre j hj, speedCoef]
    have hmem : ∀ x, (speedRefs D c)[j]? = some x → x.1 < 4 := fun x hx => by
      rw [← hpre j hj] at hx
      exact (H.mem_quad (List.mem_of_getElem? hx)).1
    cases hx : (speedRefs D c)[j]? with
    | none => rfl
    | some x => rw [Option.elim_some, Option.elim_some, globalValue_with H h1 u g (hmem x hx)]
  have hsplit : y = vecOf M (fun j => y.getD j 0) ++ y.drop M := by
    conv_lhs => rw [← List.take_append_drop M y]
    congr 1
    apply List.ext_getElem?
    intro j
    by_cases hj : j < M
    · rw [List.getElem?_take_of_lt hj, vecOf, List.getElem?_map, List.getElem?_range hj, Option.map_some, List.getD_eq_getElem?_getD, List.getElem?_eq_getElem (by omega), Option.getD_some]
    · rw [List.getElem?_eq_none (by rw [List.length_take]; omega), List.getElem?_eq_none (by rw [vecOf_length]; omega)]
  rw [hlen] at hT
  obtain ⟨L, r, hl, r1, r2, r3, r4, he⟩ := localConvection_entries hT hform (fun j => y.getD j 0) (y.drop M)
  rw [← hsplit] at hl
  have hcomb : combined M (φ c) (fun j => y.getD j 0) = speedOn D count.totalDOFs (φ c) c (withStrong count.totalDOFs (fun j => u.getD j 0) fun j => g.getD j 0) := by
    unfold speedOn combined
    rw [hlen]
    congr 1
    · funext a q
      exact Finset.sum_congr rfl fun J hJ => congrArg _ (hcoef J (Finset.mem_range.1 hJ))
    · funext a b q
      exact Finset.sum_congr rfl fun J hJ => congrArg _ (hcoef J (Finset.mem_range.1 hJ))
  refine ⟨L, (List.range r.rows).map fun i => r.ent i 0, ?_, r1, r2, by simp [r3], fun I hI => ⟨?_, fun J => ?_⟩⟩
  · unfold convectionCall
    have hu32 : u32 ((quadList (dfNum ref) mesh.topo c).length + 2 ^ 32 - (fieldList (dfNum ref 3) mesh.topo c).length) = M := by
      rw [htot] at hsmall ⊢
      unfold u32
      omega
    rw [ht, except_ok_bind, H.local_count hc hsmall, except_ok_bind, show unchecked ((List.range 4).map D) 3 = .ok (D 3) from rfl, except_ok_bind, H.size hc (by norm_num), except_ok_bind]
    dsimp only
    rw [h3, h4, hy, except_ok_bind, hu32, hl, except_ok_bind, show unchecked ((List.range 4).map D) 0 = .ok (D 0) from rfl, except_ok_bind,
      show unchecked ((List.range 4).map D) 1 = .ok (D 1) from rfl, except_ok_bind, show unchecked ((List.range 4).map D) 2 = .ok (D 2) from rfl, except_ok_bind]
    simp only [speedFields]
  · rw [List.getD_eq_getElem?_getD, List.getElem?_map, r3, List.getElem?_range hI, Option.map_some, Option.getD_some, (he I).1, hcomb]
  · rw [(he I).2 J, hcomb]

/-- **C176.** On the mesh, matrix and strong part of the assembled convection at `u` give `b(u, x) + b(x, u)` for any vector `x` of unknowns, and the right-hand side is `b(u, u)`, where `b` is
the sum over the cells of the form chosen in the configuration, of the speeds that the unknowns and the boundary values stand for. -/
theorem C176_assembled (hs : IsDfSetup ref mesh boundary info D count) (hsmall : ∀ c < mesh.num2D, ∑ h ∈ Finset.range 4, (cellList (D h) 2 c).length < 2 ^ 32)
    (hform : form < 2) {spaces : Nat → Except Fault (SpeedSpace ℝ)}
    (hT : ∀ c < mesh.num2D, ∃ t, spaces c = .ok t ∧ SpeedTables t.values t.ders t.weights (Q c) (speedRefs D c).length (w c) (φ c))
    {g : List ℝ} (hg : g.length = count.totalStrong) :
    ∃ b : (Nat → ℝ) →ₗ[ℝ] (Nat → ℝ) →ₗ[ℝ] (Nat → ℝ), (∀ v v' i, b v v' i = meshForm D count.totalDOFs φ (fun c => formOf form (Q c) (w c)) mesh.num2D v v' i) ∧
      ∀ u : List ℝ, u.length = count.totalDOFs → ∃ C, assembleConvection ((List.range 4).map D) count form spaces g mesh.num2D u = .ok C ∧
        (∀ x : List ℝ, x.length = count.totalDOFs → ∀ i,
          rowTimes C.matrix count.totalDOFs (fun j => x.getD j 0) i + rowTimes C.strong g.length (fun j => g.getD j 0) i
            = b (withStrong count.totalDOFs (fun j => u.getD j 0) fun j => g.getD j 0) (withStrong count.totalDOFs (fun j => x.getD j 0) fun j => g.getD j 0) i
              + b (withStrong count.totalDOFs (fun j => x.getD j 0) fun j => g.getD j 0) (withStrong count.totalDOFs (fun j => u.getD j 0) fun j => g.getD j 0) i) ∧
        ∀ i, ventry C.rhs i = b (withStrong count.totalDOFs (fun j => u.getD j 0) fun j => g.getD j 0) (withStrong count.totalDOFs (fun j => u.getD j 0) fun j => g.getD j 0) i := by
  have H := df_quad hs
  obtain ⟨c1, c2, -, -⟩ := setup_count hs
  obtain ⟨b, hb⟩ := meshForm_bilinear D count.totalDOFs mesh.num2D form Q w φ
  refine ⟨b, hb, fun u hu => ?_⟩
  have hsm : ∀ c < mesh.num2D, (quadList (dfNum ref) mesh.topo c).length < 2 ^ 32 := fun c hc => by
    rw [quadList_length, localOffset]
    refine lt_of_eq_of_lt ?_ (hsmall c hc)
    exact Finset.sum_congr rfl fun h hh => by rw [(H.field h (Finset.mem_range.1 hh)).list c hc]
  have hT' : ∀ c, c < mesh.num2D → ∃ t, spaces c = .ok t ∧ SpeedTables t.values t.ders t.weights (Q c) (speedRefs D c).length (w c) (φ c) := hT
  have hcall : ∀ c, c < mesh.num2D → _ := fun c hc => (hT' c hc).elim fun t ht => convectionCall_ok (form := form) hs hc (hsm c hc) hform ht.1 ht.2 hg hu
  choose! A r hcall hA1 hA2 hr hent using hcall
  have hcalls := mapM_ok _ _ (List.range mesh.num2D) fun c hc => hcall c (List.mem_range.1 hc)
  obtain ⟨S, hS, hrows, hrhs⟩ := speed_assemble H (List.range mesh.num2D) (fun c hc => List.mem_range.1 hc) (fun c hc => hsm c (List.mem_range.1 hc)) A r
    (fun c hc => ⟨hA1 c (List.mem_range.1 hc), hA2 c (List.mem_range.1 hc)⟩) (fun c hc => hr c (List.mem_range.1 hc))
  have hsum : ∀ f : Nat → ℝ, ((List.range mesh.num2D).map f).sum = ∑ c ∈ Finset.range mesh.num2D, f c := fun f => (range_sum _ _).symm
  have hrow : ∀ c < mesh.num2D, ∀ i, ∀ j < localOffset (dfNum ref) mesh.topo c 3, onRefs (quadList (dfNum ref) mesh.topo c) (rowOf D i) j = ((speedRefs D c)[j]?).elim 0 (isUnknown D i) := by
    intro c hc i j hj
    rw [onRefs, (speedRefs_prefix H hc).2 j hj]
    rfl
  have hval : ∀ c < mesh.num2D, ∀ x : List ℝ, ∀ j < localOffset (dfNum ref) mesh.topo c 3, Quad.values (dfNum ref) mesh.topo D x g c j
      = speedCoef D count.totalDOFs c (withStrong count.totalDOFs (fun j => x.getD j 0) fun j => g.getD j 0) j := by
    intro c hc x j hj
    rw [Quad.values, onRefs, (speedRefs_prefix H hc).2 j hj, speedCoef]
    have hmem : ∀ y, (speedRefs D c)[j]? = some y → y.1 < 4 := fun y hy => by
      rw [← (speedRefs_prefix H hc).2 j hj] at hy
      exact (H.mem_quad (List.mem_of_getElem? hy)).1
    cases hy : (speedRefs D c)[j]? with
    | none => rfl
    | some y => rw [Option.elim_some, Option.elim_some, globalValue_with H c1 x g (hmem y hy)]
  refine ⟨⟨S.lhsDOFs, S.lhsStrongs, S.rhs⟩, ?_, fun x hx i => ?_, fun i => ?_⟩
  · unfold assembleConvection
    rw [hcalls, except_ok_bind, hS, except_ok_bind]
  · have e := hrows x g (by omega) (by omega) i
    rw [hx] at e
    unfold rowTimes
    rw [e, hsum, hb, hb]
    unfold meshForm
    rw [← Finset.sum_add_distrib]
    refine Finset.sum_congr rfl fun c hc => ?_
    have hc' := Finset.mem_range.1 hc
    rw [← Finset.sum_add_distrib, (speedRefs_prefix H hc').1]
    refine Finset.sum_congr rfl fun j hj => ?_
    have hj' := Finset.mem_range.1 hj
    rw [hrow c hc' i j hj', ← mul_add]
    congr 1
    dsimp only
    rw [speedForm_second D count.totalDOFs form Q w φ c (withStrong count.totalDOFs (fun j => x.getD j 0) fun j => g.getD j 0),
      speedForm_first D count.totalDOFs form Q w φ c (withStrong count.totalDOFs (fun j => x.getD j 0) fun j => g.getD j 0), ← Finset.sum_add_distrib, (speedRefs_prefix H hc').1]
    refine Finset.sum_congr rfl fun J hJ => ?_
    rw [(hent c hc' j hj').2 J, hval c hc' x J (Finset.mem_range.1 hJ), add_mul]
  · show ventry S.rhs i = _
    rw [hrhs, hsum, hb]
    unfold meshForm
    refine Finset.sum_congr rfl fun c hc => ?_
    have hc' := Finset.mem_range.1 hc
    rw [(speedRefs_prefix H hc').1]
    refine Finset.sum_congr rfl fun j hj => ?_
    rw [hrow c hc' i j (Finset.mem_range.1 hj), (hent c hc' j (Finset.mem_range.1 hj)).1]

/-- **C176, the iteration.** The nonlinear iteration with the assembled convection meets the hypotheses of C174 on the convective term; left are those on the linear solver and on the regularity
of the matrices. -/
theorem C176_iteration (hs : IsDfSetup ref mesh boundary info D count) (hsmall : ∀ c < mesh.num2D, ∑ h ∈ Finset.range 4, (cellList (D h) 2 c).length < 2 ^ 32)
    (hform : form < 2) {spaces : Nat → Except Fault (SpeedSpace ℝ)}
    (hT : ∀ c < mesh.num2D, ∃ t, spaces c = .ok t ∧ SpeedTables t.values t.ders t.weights (Q c) (speedRefs D c).length (w c) (φ c))
    {S : StokesParts ℝ} (hS : S.dirichlet.length = count.totalStrong) {solve : List (Nat × Nat × ℝ) → List (Nat × ℝ) → List ℝ} (hsolve : SolvesSystems count.totalDOFs solve)
    (hreg : ∀ x : Nat → ℝ, (∀ i < count.totalDOFs, rowTimes S.matrix count.totalDOFs x i = 0) → ∀ i < count.totalDOFs, x i = 0)
    {good : List ℝ → Prop} (hstart : good (solve S.matrix S.rhs))
    (hgood : ∀ u : List ℝ, u.length = count.totalDOFs → good u → ∀ C, assembleConvection ((List.range 4).map D) count form spaces S.dirichlet mesh.num2D u = .ok C →
      (∀ x : Nat → ℝ, (∀ i < count.totalDOFs, rowTimes (C.matrix ++ S.matrix) count.totalDOFs x i = 0) → ∀ i < count.totalDOFs, x i = 0) ∧
      good (solve (convectionSystem S C).1 (convectionSystem S C).2))
    (hN : 0 < count.totalDOFs) (tol : NlTolerances ℝ) (max : Nat) {R : NlResult ℝ}
    (hR : nlRun ⟨solve, assembleConvection ((List.range 4).map D) count form spaces S.dirichlet mesh.num2D, Real.sqrt⟩ count.totalDOFs S tol max = .ok R) :
    R.solution.length = count.totalDOFs ∧ ∃ b : (Nat → ℝ) →ₗ[ℝ] (Nat → ℝ) →ₗ[ℝ] (Nat → ℝ),
      (∀ v v' i, b v v' i = meshForm D count.totalDOFs φ (fun c => formOf form (Q c) (w c)) mesh.num2D v v' i) ∧ ∃ u₀ u : List ℝ, u₀.length = count.totalDOFs ∧
      (∀ i < count.totalDOFs, rowTimes S.matrix count.totalDOFs (fun j => u₀.getD j 0) i = ventry S.rhs i) ∧ u.length = count.totalDOFs ∧
      euclidNorm count.totalDOFs (fun j => R.solution.getD j 0 - u.getD j 0) ≤ tol.relChange * euclidNorm count.totalDOFs (fun j => u₀.getD j 0) + tol.absChange ∧
      ∀ i < count.totalDOFs, quadraticResidual S.matrix S.rhs b count.totalDOFs (fun j => S.dirichlet.getD j 0) (fun j => R.solution.getD j 0) i
        = b (withStrong count.totalDOFs (fun j => R.solution.getD j 0 - u.getD j 0) fun _ => 0) (withStrong count.totalDOFs (fun j => R.solution.getD j 0 - u.getD j 0) fun _ => 0) i := by
  obtain ⟨b, hb, hasm⟩ := C176_assembled hs hsmall hform hT hS
  have : Nonempty (ConvectionParts ℝ) := ⟨⟨[], [], []⟩⟩
  choose! C hC hmat hrhs using hasm
  have hf : NlCallsAre ⟨solve, assembleConvection ((List.range 4).map D) count form spaces S.dirichlet mesh.num2D, Real.sqrt⟩ count.totalDOFs S b C good :=
    { solve := hsolve
      sqrt := rfl
      convection := hC
      matrix := fun u x hu hx i _ => hmat u hu x hx i
      rhs := fun u hu i _ => hrhs u hu i
      stokes := hreg
      regular := fun u hu hg => (hgood u hu hg _ (hC u hu)).1
      start := hstart
      next := fun u hu hg => (hgood u hu hg _ (hC u hu)).2 }
  obtain ⟨h1, -, -, u₀, u, h2, h3, h4, h5, h6⟩ := C174_newton hf hN tol max hR
  exact ⟨h1, b, hb, u₀, u, h2, h3, h4, h5, h6⟩

end

/-- Fields at one quadrature point: the value of field `J` is `(1, J)`, and its first component grows with the second coordinate. -/
def shearFields (J : Nat) : PointField ℝ where
  value a _ := if a = 0 then 1 else J
  grad a b _ := if a = 0 ∧ b = 1 then 1 else 0

/-- The tables of these fields. -/
noncomputable def shearSpace (D : Nat → DOFsData) (c : Nat) : SpeedSpace ℝ :=
  ⟨vecOf 2 fun a => ⟨1, (speedRefs D c).length, fun q J => (shearFields J).value a q⟩, vecOf 4 fun d => ⟨1, (speedRefs D c).length, fun q J => (shearFields J).grad (d / 2) (d % 2) q⟩, vecOf 1 fun _ => 1⟩

theorem closed_small {ref : DfRef2D ℝ} {D : Nat → DOFsData} {info : Nat → MeshInfo} {count : CountData} (href : dfRef2D true (fun _ => ⟨boolePoints, booleWeights⟩) dfEdgeRules 2 = .ok ref)
    (hs : IsDfSetup ref patchMesh (fun _ => closedBoundary) info D count) : ∀ c < patchMesh.num2D, ∑ h ∈ Finset.range 4, (cellList (D h) 2 c).length < 2 ^ 32 := by
  intro c hc
  have h := (patch_df true).small c hc
  rw [← df_list_length (patch_df true).plane df_tables href hc, quadList_length, localOffset] at h
  refine lt_of_eq_of_lt ?_ h
  exact Finset.sum_congr rfl fun h hh => by rw [((df_quad hs).field h (Finset.mem_range.1 hh)).list c hc]

-- C176: the reduced element on two triangles with a closed boundary, and fields with a convective term that is not zero
example : ∃ (ref : DfRef2D ℝ) (info : Nat → MeshInfo) (D : Nat → DOFsData) (count : CountData),
    IsDfSetup ref patchMesh (fun _ => closedBoundary) info D count ∧ (∀ c < patchMesh.num2D, ∑ h ∈ Finset.range 4, (cellList (D h) 2 c).length < 2 ^ 32) ∧
    (∀ c < patchMesh.num2D, ∃ t, Except.ok (shearSpace D c) = (.ok t : Except Fault _) ∧ SpeedTables t.values t.ders t.weights 1 (speedRefs D c).length (fun _ => 1) shearFields) ∧
    (List.replicate 16 (1 : ℝ)).length = count.totalStrong ∧ formOf 0 1 (fun _ => (1 : ℝ)) (shearFields 2) (shearFields 0) (shearFields 1) = 2 := by
  obtain ⟨ref, info, D, count, href, hs, -, -, -, hst⟩ := patch_closed
  refine ⟨ref, info, D, count, hs, closed_small href hs, fun c _ => ⟨_, rfl, rfl, rfl, rfl⟩, ?_, ?_⟩
  · rw [(setup_count hs).2.1, hst, List.length_replicate]
  · norm_num [formOf, convectiveForm, shearFields]

/-- A vector without speed: the free unknowns of the fields and the given ones are zero. -/
theorem meshForm_rest {ref : DfRef2D ℝ} {D : Nat → DOFsData} {info : Nat → MeshInfo} {count : CountData} {boundary : Nat → Nat → Option BInfo} {mesh : PlaneMesh ℝ}
    (hs : IsDfSetup ref mesh boundary info D count) {u : List ℝ} (hu : ∀ j < fieldOffset D 4, u.getD j 0 = 0) (m n form : Nat) (Q : Nat → Nat) (w : Nat → Nat → ℝ) (φ : Nat → Nat → PointField ℝ)
    (v : Nat → ℝ) (i : Nat) :
    meshForm D count.totalDOFs φ (fun c => formOf form (Q c) (w c)) n (withStrong count.totalDOFs (fun j => u.getD j 0) fun j => (List.replicate m (0 : ℝ)).getD j 0) v i = 0 ∧
    meshForm D count.totalDOFs φ (fun c => formOf form (Q c) (w c)) n v (withStrong count.totalDOFs (fun j => u.getD j 0) fun j => (List.replicate m (0 : ℝ)).getD j 0) i = 0 := by
  have H := df_quad hs
  have h0 : ∀ c < n, ∀ j, speedCoef D count.totalDOFs c (withStrong count.totalDOFs (fun j => u.getD j 0) fun j => (List.replicate m (0 : ℝ)).getD j 0) j = 0 := by
    intro c hc j
    unfold speedCoef
    have hmem : ∀ x, (speedRefs D c)[j]? = some x → x.1 < 4 := fun x hx => by
      have := List.mem_of_getElem? hx
      simp only [speedRefs, List.mem_flatMap, List.mem_map, List.mem_range] at this
      obtain ⟨h, hh, r, -, rfl⟩ := this
      dsimp only
      omega
    cases hx : (speedRefs D c)[j]? with
    | none => rfl
    | some x =>
      rw [Option.elim_some, globalValue]
      cases hl : lookup (D x.1) x.2 with
      | none => rfl
      | some y =>
        obtain ⟨t, k⟩ := y
        cases t with
        | unknwon => rfl
        | dof =>
          have h1 := (H.field x.1 (hmem x hx)).free x.2 k hl
          have h2 := (offset_le D (hmem x hx)).1
          have h3 := (setup_count hs).1
          simp only [withStrong]
          rw [if_pos (by omega), hu _ (by omega)]
        | strong =>
          simp only [withStrong]
          rw [if_neg (by omega), List.getD_eq_getElem?_getD, List.getElem?_replicate]
          split_ifs <;> rfl
  constructor
  · refine Finset.sum_eq_zero fun c hc => Finset.sum_eq_zero fun j _ => ?_
    dsimp only
    rw [speedForm_first, Finset.sum_eq_zero fun J _ => by rw [h0 c (Finset.mem_range.1 hc), mul_zero], mul_zero]
  · refine Finset.sum_eq_zero fun c hc => Finset.sum_eq_zero fun j _ => ?_
    dsimp only
    rw [speedForm_second, Finset.sum_eq_zero fun J _ => by rw [h0 c (Finset.mem_range.1 hc), mul_zero], mul_zero]

/-- A Stokes problem whose solution has no speed: only the additional unknown is not zero. -/
noncomputable def restParts : StokesParts ℝ := ⟨(List.range 5).map fun i => (i, i, 1), [(4, 1)], List.replicate 16 0⟩

theorem restParts_row (x : Nat → ℝ) {i : Nat} (hi : i < 5) : rowTimes restParts.matrix 5 x i = x i := by
  have : i = 0 ∨ i = 1 ∨ i = 2 ∨ i = 3 ∨ i = 4 := by omega
  rcases this with rfl | rfl | rfl | rfl | rfl <;> simp [rowTimes, restParts, entry, List.range_succ]

-- C176, the iteration: from a solution without speed the iteration stops after one pass
example : ∃ (ref : DfRef2D ℝ) (info : Nat → MeshInfo) (D : Nat → DOFsData) (count : CountData) (solve : List (Nat × Nat × ℝ) → List (Nat × ℝ) → List ℝ) (good : List ℝ → Prop) (R : NlResult ℝ),
    IsDfSetup ref patchMesh (fun _ => closedBoundary) info D count ∧ restParts.dirichlet.length = count.totalStrong ∧ SolvesSystems count.totalDOFs solve ∧ 0 < count.totalDOFs ∧
    (∀ x : Nat → ℝ, (∀ i < count.totalDOFs, rowTimes restParts.matrix count.totalDOFs x i = 0) → ∀ i < count.totalDOFs, x i = 0) ∧ good (solve restParts.matrix restParts.rhs) ∧
    (∀ u : List ℝ, u.length = count.totalDOFs → good u → ∀ C, assembleConvection ((List.range 4).map D) count 0 (fun c => .ok (shearSpace D c)) restParts.dirichlet patchMesh.num2D u = .ok C →
      (∀ x : Nat → ℝ, (∀ i < count.totalDOFs, rowTimes (C.matrix ++ restParts.matrix) count.totalDOFs x i = 0) → ∀ i < count.totalDOFs, x i = 0) ∧
      good (solve (convectionSystem restParts C).1 (convectionSystem restParts C).2)) ∧
    nlRun ⟨solve, assembleConvection ((List.range 4).map D) count 0 (fun c => .ok (shearSpace D c)) restParts.dirichlet patchMesh.num2D, Real.sqrt⟩ count.totalDOFs restParts ⟨0, 0, 0, 0⟩ 3 = .ok R ∧
    R.solution.getD 4 0 = 1 := by
  obtain ⟨ref, info, D, count, href, hs, ho, -, ht, hst⟩ := patch_closed
  have hfo : fieldOffset D 4 = 4 := by
    have := (C118_unknowns df_tables href hs).1 ho
    omega
  have hst' : restParts.dirichlet.length = count.totalStrong := by rw [(setup_count hs).2.1, hst]; simp [restParts]
  obtain ⟨solve, hsol⟩ := exists_system_solver 5
  obtain ⟨b, hb, hasm⟩ := C176_assembled hs (closed_small href hs) (form := 0) (by norm_num) (spaces := fun c => .ok (shearSpace D c)) (Q := fun _ => 1) (w := fun _ _ => 1) (φ := fun _ => shearFields)
    (fun c _ => ⟨_, rfl, rfl, rfl, rfl⟩) hst'
  rw [ht] at hb hasm
  have hreg : ∀ x : Nat → ℝ, (∀ i < 5, rowTimes restParts.matrix 5 x i = 0) → ∀ i < 5, x i = 0 := fun x hx i hi => by rw [← restParts_row x hi, hx i hi]
  obtain ⟨s1, s2⟩ := hsol restParts.matrix restParts.rhs hreg
  have hu0 : ∀ i < 5, (solve restParts.matrix restParts.rhs).getD i 0 = if i = 4 then 1 else 0 := fun i hi => by
    have := s2 i hi
    rw [show ∑ j ∈ Finset.range 5, entry restParts.matrix i j * (solve restParts.matrix restParts.rhs).getD j 0 = rowTimes restParts.matrix 5 (fun j => (solve restParts.matrix restParts.rhs).getD j 0) i
      from rfl, restParts_row _ hi] at this
    rw [this]
    simp [restParts, ventry, eq_comm]
  have hgood : ∀ u : List ℝ, u.length = 5 → (∀ i < 5, u.getD i 0 = if i = 4 then 1 else 0) →
      ∀ C, assembleConvection ((List.range 4).map D) count 0 (fun c => .ok (shearSpace D c)) restParts.dirichlet patchMesh.num2D u = .ok C →
        (∀ x : Nat → ℝ, ∀ i < 5, rowTimes (C.matrix ++ restParts.matrix) 5 x i = x i) ∧ ∀ i < 5, ventry (convectionSystem restParts C).2 i = if i = 4 then 1 else 0 := by
    intro u hu hui C hC
    obtain ⟨C', hC', hmat, hrhs⟩ := hasm u hu
    obtain rfl : C' = C := Except.ok.inj (hC'.symm.trans hC)
    have hz := fun v i => meshForm_rest hs (u := u) (fun j hj => by rw [hui j (by omega), if_neg (by omega)]) 16 patchMesh.num2D 0 (fun _ => 1) (fun _ _ => 1) (fun _ => shearFields) v i
    rw [ht] at hz
    have hst0 : ∀ i, rowTimes C'.strong restParts.dirichlet.length (fun j => restParts.dirichlet.getD j 0) i = 0 := fun i => by
      refine Finset.sum_eq_zero fun j _ => ?_
      have : restParts.dirichlet.getD j 0 = 0 := by
        unfold restParts
        dsimp only
        rw [List.getD_eq_getElem?_getD, List.getElem?_replicate]
        split_ifs <;> rfl
      dsimp only
      rw [this, mul_zero]
    have hrow0 : ∀ x : Nat → ℝ, ∀ i, rowTimes C'.matrix 5 x i = 0 := fun x i => by
      have h := hmat (vecOf 5 x) (vecOf_length _ _) i
      rw [hst0, hb, hb, add_zero] at h
      have h1 : rowTimes C'.matrix 5 x i = rowTimes C'.matrix 5 (fun j => (vecOf 5 x).getD j 0) i := Finset.sum_congr rfl fun j hj => by dsimp only; rw [vecOf_getD _ (Finset.mem_range.1 hj)]
      rw [h1, h]
      exact (congrArg₂ (· + ·) (hz _ i).1 (hz _ i).2).trans (add_zero 0)
    refine ⟨fun x i hi => by rw [rowTimes_append, hrow0, restParts_row x hi, zero_add], fun i _ => ?_⟩
    have hr : ventry C'.rhs i = 0 := by
      rw [hrhs, hb]
      exact (hz _ i).1
    unfold convectionSystem
    dsimp only
    rw [ventry_append, ventry_append, hr, zero_add]
    rw [if_pos (by simp [restParts]), ventry_subtract]
    have := hst0 i
    unfold rowTimes at this
    rw [this, neg_zero, zero_add]
    simp [restParts, ventry, eq_comm]
  have hzero : ∀ f : Nat → ℝ, (∀ i < 5, f i = 0) → arrayNorm Real.sqrt 5 f = 0 := fun f hf => by
    rw [arrayNorm_eq, euclidNorm, Finset.sum_eq_zero fun i hi => by rw [hf i (Finset.mem_range.1 hi)]; norm_num, Real.sqrt_zero]
  have hnext : ∀ u : List ℝ, u.length = 5 → (∀ i < 5, u.getD i 0 = if i = 4 then 1 else 0) →
      ∀ C, assembleConvection ((List.range 4).map D) count 0 (fun c => .ok (shearSpace D c)) restParts.dirichlet patchMesh.num2D u = .ok C →
        (solve (convectionSystem restParts C).1 (convectionSystem restParts C).2).length = 5 ∧
        ∀ i < 5, (solve (convectionSystem restParts C).1 (convectionSystem restParts C).2).getD i 0 = if i = 4 then 1 else 0 := by
    intro u hu hui C hC
    obtain ⟨g1, g2⟩ := hgood u hu hui C hC
    obtain ⟨n1, n2⟩ := hsol (convectionSystem restParts C).1 (convectionSystem restParts C).2 fun x hx i hi => by rw [← g1 x i hi]; exact hx i hi
    exact ⟨n1, fun i hi => by rw [← g2 i hi, ← n2 i hi]; exact (g1 (fun j => (solve (convectionSystem restParts C).1 (convectionSystem restParts C).2).getD j 0) i hi).symm⟩
  obtain ⟨C, hC, -⟩ := hasm _ s1
  obtain ⟨n1, n2⟩ := hnext _ s1 hu0 C hC
  obtain ⟨g1, g2⟩ := hgood _ s1 hu0 C hC
  refine ⟨ref, info, D, count, solve, fun u => ∀ i < 5, u.getD i 0 = if i = 4 then 1 else 0, ⟨solve (convectionSystem restParts C).1 (convectionSystem restParts C).2, 0, 1⟩, hs, hst', ?_⟩
  rw [ht]
  refine ⟨hsol, by norm_num, hreg, hu0, fun u hu hui C' hC' => ⟨fun x hx i hi => ?_, (hnext u hu hui C' hC').2⟩, ?_, ?_⟩
  · rw [← (hgood u hu hui C' hC').1 x i hi]
    exact hx i hi
  · unfold nlRun nlLoop
    simp only [show (0 : Nat) < 5 by norm_num, if_true]
    rw [hC]
    simp only [except_ok_bind]
    have hres : arrayNorm Real.sqrt 5 (bulkResidual (convectionSystem restParts C).1 (convectionSystem restParts C).2 (solve (convectionSystem restParts C).1 (convectionSystem restParts C).2)) = 0 := by
      refine hzero _ fun i hi => ?_
      rw [bulkResidual_eq, n1, g2 i hi, ← n2 i hi]
      exact sub_eq_zero.2 ((g1 (fun j => (solve (convectionSystem restParts C).1 (convectionSystem restParts C).2).getD j 0) i hi))
    have hch : arrayNorm Real.sqrt 5 (fun i => (solve (convectionSystem restParts C).1 (convectionSystem restParts C).2).getD i 0 - (solve restParts.matrix restParts.rhs).getD i 0) = 0 :=
      hzero _ fun i hi => by rw [n2 i hi, hu0 i hi, sub_self]
    rw [hres, hch, if_pos (by norm_num)]
    rfl
  · exact (n2 4 (by norm_num)).trans (by norm_num)

end PolyDiM
