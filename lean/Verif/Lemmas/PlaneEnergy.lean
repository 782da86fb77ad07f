import Verif.Lemmas.PlaneCells
import Verif.Props.AssemblerVem2D
import Mathlib.LinearAlgebra.FiniteDimensional.Lemmas
import Mathlib.LinearAlgebra.Matrix.ToLin

/-!
# Lemmas: the assembled quadratic form
-/

namespace PolyDiM

open Spec MvPolynomial MeasureTheory

/-- A definite matrix determines the solution of its linear systems. -/
theorem definite_solves {N : Nat} {E : Nat → Nat → ℝ}
    (h : ∀ x : List ℝ, x.length = N → ∑ i ∈ Finset.range N, x.getD i 0 * ∑ j ∈ Finset.range N, E i j * x.getD j 0 = 0 → ∀ i < N, x.getD i 0 = 0) (b : Nat → ℝ) :
    ∃! x : List ℝ, x.length = N ∧ ∀ i < N, ∑ j ∈ Finset.range N, E i j * x.getD j 0 = b i := by
  have hfun : ∀ f : Fin N → ℝ, ∀ i : Fin N, ∑ j ∈ Finset.range N, E i j * (List.ofFn f).getD j 0 = ∑ j : Fin N, E i j * f j := by
    intro f i
    rw [← Fin.sum_univ_eq_sum_range (fun j => E i j * (List.ofFn f).getD j 0)]
    refine Finset.sum_congr rfl fun j _ => ?_
    congr 1
    simp [List.getD_eq_getElem?_getD]
  have hget : ∀ f : Fin N → ℝ, ∀ i : Fin N, (List.ofFn f).getD i 0 = f i := by
    intro f i
    simp [List.getD_eq_getElem?_getD]
  let M : Matrix (Fin N) (Fin N) ℝ := fun i j => E i j
  have hM : ∀ f i, M.mulVecLin f i = ∑ j : Fin N, E i j * f j := fun f i => rfl
  have hinj : Function.Injective M.mulVecLin := by
    rw [injective_iff_map_eq_zero]
    intro f hf
    have hz := h (List.ofFn f) List.length_ofFn (by
      rw [← Fin.sum_univ_eq_sum_range (fun i => (List.ofFn f).getD i 0 * ∑ j ∈ Finset.range N, E i j * (List.ofFn f).getD j 0)]
      refine Finset.sum_eq_zero fun i _ => ?_
      rw [hfun, ← hM, hf]
      simp)
    funext i
    rw [← hget f i, hz i i.2]
    rfl
  have hsurj := LinearMap.injective_iff_surjective.1 hinj
  obtain ⟨f, hf⟩ := hsurj fun i => b i
  refine ⟨List.ofFn f, ⟨List.length_ofFn, fun i hi => ?_⟩, fun y hy => ?_⟩
  · rw [hfun f ⟨i, hi⟩, ← hM, hf]
  · obtain ⟨hy1, hy2⟩ := hy
    subst hy1
    have : (fun i : Fin y.length => y[i]) = f := by
      refine hinj ?_
      rw [hf]
      funext i
      rw [hM, ← hfun, ← hy2 i i.2]
      refine Finset.sum_congr rfl fun j _ => ?_
      congr 2
      exact List.ofFn_getElem
    rw [← this]
    exact List.ofFn_getElem.symm

section
variable {k : Nat} {mesh : PlaneMesh ℝ} {poly : Nat → VemPolygon ℝ} {n : Nat → Nat} {len : Nat → Nat → ℝ} {dir : Nat → Nat → Bool} {nrm : Nat → Nat → ℝ × ℝ}
  {ts : List ℝ} {info : MeshInfo} {data : DOFsData}

/-- A triangulated polygon has vertices. -/
theorem element_pos {poly : VemPolygon ℝ} {n : Nat} {V : Nat → ℝ × ℝ} {len : Nat → ℝ} {dir : Nat → Bool} {nrm : Nat → ℝ × ℝ} (hE : IsElement poly n V len dir nrm) : 0 < n := by
  rcases Nat.eq_zero_or_pos n with h0 | h0
  swap
  · exact h0
  subst h0
  have hb := hE.tris.boundary (fun P Q => P.1 * Q.2 - P.2 * Q.1) (fun P Q => by ring)
  rw [Finset.range_zero, Finset.sum_empty] at hb
  obtain ⟨v, hv, hpos⟩ := hE.tris.pos
  have hs : ∀ v : (ℝ × ℝ) × (ℝ × ℝ) × (ℝ × ℝ), v.1.1 * v.2.1.2 - v.1.2 * v.2.1.1 + (v.2.1.1 * v.2.2.2 - v.2.1.2 * v.2.2.1) + (v.2.2.1 * v.1.2 - v.2.2.2 * v.1.1)
      = shoelace v.1 v.2.1 v.2.2 := by
    intro v
    unfold shoelace
    ring
  simp only [hs] at hb
  have hle : ∀ x ∈ poly.tris.map (fun v => shoelace v.1 v.2.1 v.2.2), 0 ≤ x := by
    intro x hx
    obtain ⟨v', hv', rfl⟩ := List.mem_map.1 hx
    exact hE.tris.ccw v' hv'
  have := List.single_le_sum hle _ (List.mem_map_of_mem hv)
  rw [hb] at this
  exact absurd hpos (not_lt.2 this)

/-- The rows of the assembled matrix tested with a vector. -/
theorem tested_rows (H : Handler k mesh.topo info data) (x : List ℝ) (cells : List Nat) (B : Nat → Nat → ℝ) :
    ∑ i ∈ Finset.range data.counters.dofs, x.getD i 0 * (cells.map fun c => ∑ j ∈ Finset.range (vemList k mesh.topo c).length, onList (vemList k mesh.topo c) (rowTest data i) j * B c j).sum
      = (cells.map fun c => ∑ j ∈ Finset.range (vemList k mesh.topo c).length, onList (vemList k mesh.topo c) (testValue data fun i => x.getD i 0) j * B c j).sum := by
  induction cells with
  | nil => simp
  | cons c cells ih =>
    simp only [List.map_cons, List.sum_cons, mul_add, Finset.sum_add_distrib]
    rw [ih]
    congr 1
    simp only [Finset.mul_sum]
    rw [Finset.sum_comm]
    refine Finset.sum_congr rfl fun j _ => ?_
    simp only [← mul_assoc]
    rw [← Finset.sum_mul]
    congr 1
    unfold onList
    cases hj : (vemList k mesh.topo c)[j]? with
    | none => simp
    | some r =>
      simp only [Option.elim_some]
      unfold rowTest testValue
      cases hl : lookup data r with
      | none => simp
      | some y =>
        obtain ⟨t, i⟩ := y
        cases t with
        | dof =>
          have hi := H.free r i hl
          simp only [Option.some.injEq, DOF.mk.injEq, true_and]
          rw [Finset.sum_eq_single_of_mem i (Finset.mem_range.2 hi) (fun i' _ hne => by rw [if_neg (Ne.symm hne), mul_zero]), if_pos rfl, mul_one]
        | strong => simp
        | unknwon => simp

theorem valueOf_zero (x : List ℝ) (m : Nat) : valueOf data x (List.replicate m 0) = testValue data fun i => x.getD i 0 := by
  funext r
  unfold valueOf testValue
  cases hl : lookup data r with
  | none => rfl
  | some y =>
    obtain ⟨t, i⟩ := y
    cases t with
    | strong =>
      simp only [List.getD_eq_getElem?_getD, List.getElem?_replicate]
      split_ifs <;> rfl
    | _ => rfl

/-- The assembled form is definite if the forms of the cells vanish on constants only. -/
theorem definite_core (hM : IsPlaneMesh k mesh poly n len dir nrm) (hts : ts.length = k - 1) (H : Handler k mesh.topo info data) {A : Nat → DMat ℝ}
    (hrows : ∀ c ∈ mesh.cells, (A c).rows = (vemList k mesh.topo c).length)
    (hA : ∀ c ∈ mesh.cells, ∀ x : Nat → ℝ, 0 ≤ ∑ i ∈ Finset.range (A c).rows, x i * apply (A c) x i ∧
      (∑ i ∈ Finset.range (A c).rows, x i * apply (A c) x i = 0 ↔ ∃ a : ℝ, IsDofVector k (poly c) (n c) (cellPoint mesh c) (dir c) ts (fun _ => a) x))
    (hcover : ∀ d ≤ 2, ∀ E < (mesh.topo.markers d).length, ∃ c ∈ mesh.cells, E ∈ entities mesh d c)
    (hconn : ∀ p < mesh.num0D, ∃ q, Relation.ReflTransGen (Linked mesh) p q ∧ bTypeOf info (0, q) = some .strong)
    {S : Sys ℝ} (hS : ∀ free strong : List ℝ, free.length = data.counters.dofs → strong.length = data.counters.strongs → ∀ i,
        ∑ j ∈ Finset.range free.length, entry S.lhsDOFs i j * free.getD j 0 + ∑ j ∈ Finset.range strong.length, entry S.lhsStrongs i j * strong.getD j 0
          = (mesh.cells.map fun c => ∑ j ∈ Finset.range (vemList k mesh.topo c).length,
              onList (vemList k mesh.topo c) (rowTest data i) j * apply (A c) (onList (vemList k mesh.topo c) (valueOf data free strong)) j).sum)
    {x : List ℝ} (hx : x.length = data.counters.dofs) :
    0 ≤ ∑ i ∈ Finset.range data.counters.dofs, x.getD i 0 * ∑ j ∈ Finset.range data.counters.dofs, entry S.lhsDOFs i j * x.getD j 0 ∧
      (∑ i ∈ Finset.range data.counters.dofs, x.getD i 0 * ∑ j ∈ Finset.range data.counters.dofs, entry S.lhsDOFs i j * x.getD j 0 = 0 →
        ∀ i < data.counters.dofs, x.getD i 0 = 0) := by
  set χ : GDOF → ℝ := testValue data fun i => x.getD i 0 with hχ
  have hrow : ∀ i, ∑ j ∈ Finset.range data.counters.dofs, entry S.lhsDOFs i j * x.getD j 0
      = (mesh.cells.map fun c => ∑ j ∈ Finset.range (vemList k mesh.topo c).length,
          onList (vemList k mesh.topo c) (rowTest data i) j * apply (A c) (onList (vemList k mesh.topo c) χ) j).sum := by
    intro i
    have := hS x (List.replicate data.counters.strongs 0) hx List.length_replicate i
    rw [valueOf_zero, hx] at this
    rw [← this, left_eq_add]
    refine Finset.sum_eq_zero fun j _ => ?_
    rw [List.getD_eq_getElem?_getD, List.getElem?_replicate]
    split_ifs <;> simp
  simp only [hrow]
  rw [tested_rows H x mesh.cells fun c => apply (A c) (onList (vemList k mesh.topo c) χ)]
  set y : Nat → Nat → ℝ := fun c => onList (vemList k mesh.topo c) χ with hy
  have hnn : ∀ z ∈ mesh.cells.map fun c => ∑ j ∈ Finset.range (vemList k mesh.topo c).length, y c j * apply (A c) (y c) j, 0 ≤ z := by
    intro z hz
    obtain ⟨c, hc, rfl⟩ := List.mem_map.1 hz
    rw [← hrows c hc]
    exact (hA c hc (y c)).1
  refine ⟨List.sum_nonneg hnn, fun h0 => ?_⟩
  have hcell : ∀ c ∈ mesh.cells, ∃ a : ℝ, IsDofVector k (poly c) (n c) (cellPoint mesh c) (dir c) ts (fun _ => a) (y c) := by
    intro c hc
    refine (hA c hc (y c)).2.1 ?_
    rw [hrows c hc]
    refine le_antisymm ?_ (hnn _ (List.mem_map_of_mem hc))
    rw [← h0]
    exact List.single_le_sum hnn _ (List.mem_map_of_mem hc)
  have hvert : ∀ c ∈ mesh.cells, ∃ a : ℝ, IsDofVector k (poly c) (n c) (cellPoint mesh c) (dir c) ts (fun _ => a) (y c) ∧ ∀ p ∈ mesh.topo.cell2DVertices c, χ ⟨0, p, 0⟩ = a := by
    intro c hc
    obtain ⟨a, ha⟩ := hcell c hc
    refine ⟨a, ha, fun p hp => ?_⟩
    obtain ⟨e, he⟩ := List.mem_iff_getElem?.1 hp
    have hlt : e < n c := by
      rw [← hM.vertices c (mem_cells.1 hc).1]
      exact (List.getElem?_eq_some_iff.1 he).1
    have := ha.vertex e hlt
    rw [← this, hy]
    simp only [onList]
    rw [vemList_vertex (hM.vertices c (mem_cells.1 hc).1) hlt, Option.elim_some, List.getD_eq_getElem?_getD, he]
    rfl
  have hlink : ∀ a b, Linked mesh a b → χ ⟨0, a, 0⟩ = χ ⟨0, b, 0⟩ := by
    rintro a b ⟨c, hc, ha, hb⟩
    obtain ⟨v, -, hv⟩ := hvert c hc
    rw [hv a ha, hv b hb]
  have hgen : ∀ a b, Relation.ReflTransGen (Linked mesh) a b → χ ⟨0, a, 0⟩ = χ ⟨0, b, 0⟩ := by
    intro a b h
    induction h with
    | refl => rfl
    | tail _ h2 ih => exact ih.trans (hlink _ _ h2)
  have hzero : ∀ p < mesh.num0D, χ ⟨0, p, 0⟩ = 0 := by
    intro p hp
    obtain ⟨q, hpq, hq⟩ := hconn p hp
    rw [hgen p q hpq, hχ, testValue]
    cases hl : lookup data ⟨0, q, 0⟩ with
    | none => rfl
    | some z =>
      obtain ⟨t, i⟩ := z
      cases t with
      | dof =>
        obtain ⟨-, hqr, -⟩ := H.range _ _ hl
        obtain ⟨b', hb', ht'⟩ := H.type_of (by norm_num) hqr hl
        rw [bTypeOf] at hq
        dsimp only at hq hb'
        rw [hb', Option.map_some, Option.some.injEq] at hq
        rw [hq] at ht'
        cases ht'
      | _ => rfl
  intro i hi
  obtain ⟨r, hr⟩ := H.ontoFree i hi
  have hval : χ r = x.getD i 0 := by
    rw [hχ, testValue, hr]
  rw [← hval]
  obtain ⟨hd, hrc, hrd⟩ := H.range _ _ hr
  obtain ⟨c, hc, hmem⟩ := hcover r.dim hd r.cell hrc
  have hc' := (mem_cells.1 hc).1
  obtain ⟨a, ha, hva⟩ := hvert c hc
  have hn := element_pos (hM.element c hc')
  have ha0 : a = 0 := by
    have hm := cell_vertex_mem hM hc' hn
    rw [← hva _ (List.mem_of_getElem? hm)]
    exact hzero _ (H.verts c hc' _ (List.mem_of_getElem? hm))
  subst ha0
  have hin : r ∈ vemList k mesh.topo c := by
    obtain ⟨d, E, j⟩ := r
    simp only [vemList, List.mem_append, List.mem_map, List.mem_flatMap, List.mem_range]
    dsimp only at hd hmem hrd
    interval_cases d
    · have : j = 0 := by simpa [numOf] using hrd
      subst this
      exact Or.inl (Or.inl ⟨E, by simpa [entities] using hmem, rfl⟩)
    · exact Or.inl (Or.inr ⟨E, by simpa [entities] using hmem, j, by simpa [numOf] using hrd, rfl⟩)
    · obtain rfl : E = c := by simpa [entities] using hmem
      exact Or.inr ⟨j, by simpa [numOf] using hrd, rfl⟩
  obtain ⟨j, hj⟩ := List.mem_iff_getElem?.1 hin
  have hjl : j < (vemList k mesh.topo c).length := (List.getElem?_eq_some_iff.1 hj).1
  rw [vemList_length k mesh.topo c (n c) (hM.vertices c hc') (hM.edges c hc')] at hjl
  have h0v : IsDofVector k (poly c) (n c) (cellPoint mesh c) (dir c) ts (fun _ => (0 : ℝ)) (fun _ => 0) :=
    ⟨fun _ _ => rfl, fun _ _ _ _ _ => rfl, fun _ _ _ => by simp⟩
  have := dofVector_unique hts ha h0v j (by
    have e4 : k * (k - 1) / 2 = tri (k - 1) := by
      rcases k with _ | _ | k
      · rfl
      · rfl
      · have := tri_div k
        simpa [mul_comm] using this
    omega)
  rw [← this, hy]
  simp only [onList]
  rw [hj, Option.elim_some]

end

end PolyDiM
