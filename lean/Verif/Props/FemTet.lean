import Verif.Lemmas.FemTetBasis

/-!
# C41-C43: the tetrahedral Lagrange element on the reference tetrahedron

About `tetCreate`, `tetValue`, `tetDerivative` of `Verif/Model/FemTet.lean`.
-/

namespace PolyDiM
open Finset

/-! ## Small specification -/

namespace Spec

/-- The weight of vertex `v` in a quadruple of barycentric weights. -/
def tetWeight (t : Nat × Nat × Nat × Nat) (v : Nat) : Nat :=
  if v = 0 then t.1 else if v = 1 then t.2.1 else if v = 2 then t.2.2.1 else if v = 3 then t.2.2.2 else 0

/-- First and last vertex of the edges of the reference tetrahedron. -/
def tetEdgeEnds : List (Nat × Nat) := [(0, 1), (1, 2), (2, 0), (0, 3), (3, 1), (3, 2)]

/-- Barycentric coordinate `v` of a point of the reference tetrahedron. -/
def baryCoord {K : Type} [Field K] (x : K × K × K) (v : Nat) : K :=
  if v = 0 then 1 - x.1 - x.2.1 - x.2.2 else if v = 1 then x.1 else if v = 2 then x.2.1 else if v = 3 then x.2.2 else 0

/-- `g0`, `g1`, `g2` are the partial derivatives of `f` at `x`. -/
def HasPartials3At (f : ℝ → ℝ → ℝ → ℝ) (x : ℝ × ℝ × ℝ) (g0 g1 g2 : ℝ) : Prop :=
  HasDerivAt (fun s => f s x.2.1 x.2.2) g0 x.1 ∧ HasDerivAt (fun s => f x.1 s x.2.2) g1 x.2.1 ∧ HasDerivAt (fun s => f x.1 x.2.1 s) g2 x.2.2

end Spec

open Spec

/-! ## C41 -/

/-- **C41.** DOF layout for every order `k ≥ 1`: the types are exactly the quadruples summing to `k`, each once; positions are the lattice
points; vertices first, then the `k - 1` DOFs of each edge from its first to its last vertex, then the DOFs inside the faces (face
`f` is the one opposite to vertex `3 - f`), then the interior ones. -/
theorem C41_layout {K : Type} [Field K] [CharZero K] (k : Nat) (hk : 1 ≤ k) :
    ∃ d, tetCreate K k = .ok d ∧ d.order = k ∧ d.num0D = 1 ∧ d.num1D = k - 1 ∧ d.num2D = (k - 1) * (k - 2) / 2 ∧
      d.num3D = (k - 1) * (k - 2) * (k - 3) / 6 ∧ d.numBasis = (k + 1) * (k + 2) * (k + 3) / 6 ∧
      d.numBasis = 4 * d.num0D + 6 * d.num1D + 4 * d.num2D + d.num3D ∧
      d.types.length = d.numBasis ∧ d.positions.length = d.numBasis ∧ d.types.Nodup ∧
      (∀ a b c e : Nat, (a, b, c, e) ∈ d.types ↔ a + b + c + e = k) ∧
      (∀ i a b c e : Nat, d.types[i]? = some (a, b, c, e) →
        d.positions[i]? = some ((b : K) / (k : K), (c : K) / (k : K), (e : K) / (k : K))) ∧
      (∀ v, v < 4 → ∃ t, d.types[v]? = some t ∧ tetWeight t v = k) ∧
      (∀ e j o f, tetEdgeEnds[e]? = some (o, f) → j < d.num1D →
        ∃ t, d.types[4 + e * d.num1D + j]? = some t ∧ tetWeight t o = k - (j + 1) ∧ tetWeight t f = j + 1) ∧
      (∀ f j, f < 4 → j < d.num2D → ∃ t, d.types[4 + 6 * d.num1D + f * d.num2D + j]? = some t ∧ tetWeight t (3 - f) = 0 ∧
        ∀ v, v < 4 → v ≠ 3 - f → 0 < tetWeight t v) ∧
      ∀ j, j < d.num3D → ∃ t, d.types[4 + 6 * d.num1D + 4 * d.num2D + j]? = some t ∧ ∀ v, v < 4 → 0 < tetWeight t v := by
  obtain ⟨k, rfl⟩ : ∃ m, k = m + 1 := ⟨k - 1, by omega⟩
  refine ⟨_, tetCreate_ok k, rfl, rfl, rfl, ?_, ?_, ?_, ?_, tetTypes_length k, ?_, tetTypes_nodup k, fun a b c e => mem_tetTypes k _, ?_,
    ?_, ?_, ?_, ?_⟩
  · show tri (k - 1) = (k + 1 - 1) * (k + 1 - 2) / 2
    rcases k with _ | k
    · rfl
    · rw [show (k + 1 + 1 - 1) * (k + 1 + 1 - 2) = k * (k + 1) by simp [Nat.mul_comm]]
      exact (tri_div' k).symm
  · show tet (k - 2) = _
    rcases k with _ | _ | k
    · rfl
    · rfl
    · rw [show (k + 1 + 1 + 1 - 1) * (k + 1 + 1 + 1 - 2) * (k + 1 + 1 + 1 - 3) = k * (k + 1) * (k + 2) by
        simp only [show k + 1 + 1 + 1 - 1 = k + 2 by omega, show k + 1 + 1 + 1 - 2 = k + 1 by omega, show k + 1 + 1 + 1 - 3 = k by omega]
        ring]
      have := six_tet k
      show tet k = _
      omega
  · show tet (k + 2) = _
    have := six_tet (k + 2)
    rw [show (k + 1 + 1) * (k + 1 + 2) * (k + 1 + 3) = (k + 2) * (k + 2 + 1) * (k + 2 + 2) by ring]
    omega
  · exact (tet_count k).symm
  · show ((tetTypes k).map _).length = _
    rw [List.length_map, tetTypes_length]
    rfl
  · intro i a b c e h
    exact tetPos_get (K := K) h
  · intro v hv
    have : v = 0 ∨ v = 1 ∨ v = 2 ∨ v = 3 := by omega
    rcases this with rfl | rfl | rfl | rfl <;> exact ⟨_, rfl, rfl⟩
  · intro e j o f he hj
    have hj : j < k := hj
    have h6 : e < 6 := (List.getElem?_eq_some_iff.1 he).1
    have h := tetTypes_edge k e j h6 hj
    have : e = 0 ∨ e = 1 ∨ e = 2 ∨ e = 3 ∨ e = 4 ∨ e = 5 := by omega
    have hsub : k - j = k + 1 - (j + 1) := by omega
    rcases this with rfl | rfl | rfl | rfl | rfl | rfl <;>
      simp only [tetEdgeEnds, List.getElem?_cons_zero, List.getElem?_cons_succ, Option.some.injEq, Prod.mk.injEq] at he <;>
      obtain ⟨rfl, rfl⟩ := he <;>
      simp only [tetEdgeTypes, List.getElem?_cons_zero, List.getElem?_cons_succ, Option.bind_some, List.getElem?_map, List.getElem?_range hj,
        Option.map_some] at h <;>
      exact ⟨_, h, hsub, rfl⟩
  · intro f j hf hj
    have hj : j < tri (k - 1) := hj
    have h := tetTypes_face k f j hf hj
    obtain ⟨⟨a, b⟩, hab⟩ : ∃ ab, (tetFaceLoop k)[j]? = some ab := ⟨_, List.getElem?_eq_getElem (by rw [tetFaceLoop_length]; exact hj)⟩
    have hm := mem_tetFaceLoop.1 (List.mem_of_getElem? hab)
    have : f = 0 ∨ f = 1 ∨ f = 2 ∨ f = 3 := by omega
    rcases this with rfl | rfl | rfl | rfl <;>
      simp only [tetFaceTypes, List.getElem?_cons_zero, List.getElem?_cons_succ, Option.bind_some, List.getElem?_map, hab, Option.map_some] at h <;>
      refine ⟨_, h, rfl, fun v hv hne => ?_⟩ <;>
      (have : v = 0 ∨ v = 1 ∨ v = 2 ∨ v = 3 := by omega) <;>
      rcases this with rfl | rfl | rfl | rfl <;> simp only [tetWeight] <;> norm_num <;> omega
  · intro j hj
    have hj : j < tet (k - 2) := hj
    obtain ⟨t, ht⟩ : ∃ t, (tetInnerTypes k)[j]? = some t := ⟨_, List.getElem?_eq_getElem (by rw [tetInnerTypes_length]; exact hj)⟩
    refine ⟨t, (tetTypes_inner k j).trans ht, fun v hv => ?_⟩
    obtain ⟨-, h0, h1, h2, h3⟩ := mem_tetInnerTypes.1 (List.mem_of_getElem? ht)
    have : v = 0 ∨ v = 1 ∨ v = 2 ∨ v = 3 := by omega
    rcases this with rfl | rfl | rfl | rfl <;> simpa [tetWeight]

example : ∃ d, tetCreate ℚ 4 = .ok d ∧ d.types.length = 35 ∧ d.types[34]? = some (1, 1, 1, 1) :=
  ⟨_, tetCreate_ok 3, by decide, by decide⟩

/-- **C41, order 0.** The order-0 branch never resizes `DofTypes` and then reads its first entry. -/
theorem C41_order_zero (K : Type) [Field K] : tetCreate K 0 = .error .undefinedBehaviour := rfl

/-! ## C42 -/

/-- **C42, nodal.** Every basis function is `1` at its own DOF and `0` at the others, for every order. -/
theorem C42_nodal {K : Type} [Field K] [CharZero K] (k : Nat) (d : TetData K) (hd : tetCreate K k = .ok d) (i j : Nat) (p : Vec3 K)
    (hi : i < d.numBasis) (hp : d.positions[j]? = some p) : tetValue d p i = .ok (if i = j then 1 else 0) := by
  rcases k with _ | k
  · exact absurd hd (by rw [C41_order_zero]; simp)
  · rw [tetCreate_ok] at hd
    injection hd with hd
    subst hd
    have hi : i < tet (k + 2) := hi
    have hl := tetTypes_length k
    obtain ⟨t, ht⟩ : ∃ t, (tetTypes k)[i]? = some t := ⟨_, List.getElem?_eq_getElem (by omega)⟩
    have hj : j < (tetTypes k).length := by
      have := (List.getElem?_eq_some_iff.1 hp).1
      have h2 : (tetRef K k).positions.length = (tetTypes k).length := List.length_map _
      omega
    obtain ⟨t', ht'⟩ : ∃ t, (tetTypes k)[j]? = some t := ⟨_, List.getElem?_eq_getElem hj⟩
    rw [tetPos_get ht'] at hp
    injection hp with hp
    subst hp
    rw [tetValue_ok ht, tetPhi_nodal k t t' (tetTypes_sum ht) (tetTypes_sum ht')]
    congr 1
    by_cases hij : i = j
    · subst hij
      rw [ht] at ht'
      injection ht' with ht'
      rw [if_pos ht', if_pos rfl]
    · rw [if_neg hij, if_neg]
      intro he
      subst he
      obtain ⟨h1, h2⟩ := List.getElem?_eq_some_iff.1 ht
      obtain ⟨h3, h4⟩ := List.getElem?_eq_some_iff.1 ht'
      exact hij ((List.Nodup.getElem_inj_iff (tetTypes_nodup k)).1 (h2.trans h4.symm))

example : ∃ d, tetCreate ℚ 2 = .ok d ∧ d.positions[8]? = some (1 / 2, 0, 1 / 2) ∧ tetValue d (1 / 2, 0, 1 / 2) 8 = .ok 1 ∧
    tetValue d (1 / 2, 0, 1 / 2) 9 = .ok 0 := by
  have hp : (tetRef ℚ 1).positions[8]? = some (1 / 2, 0, 1 / 2) := by
    rw [tetPos_get (t := (0, 1, 0, 1)) (by decide)]; simp [tetPos]
  have hn : (tetRef ℚ 1).numBasis = 10 := by decide
  exact ⟨_, tetCreate_ok 1, hp, C42_nodal 2 _ (tetCreate_ok 1) 8 8 _ (by omega) hp, C42_nodal 2 _ (tetCreate_ok 1) 9 8 _ (by omega) hp⟩

/-- **C42, sum.** The basis functions sum to one at every point, for every order. -/
theorem C42_partition_of_unity {K : Type} [Field K] [CharZero K] (k : Nat) (d : TetData K) (hd : tetCreate K k = .ok d) (x : Vec3 K) :
    ∃ f : Nat → K, (∀ i, i < d.numBasis → tetValue d x i = .ok (f i)) ∧ ∑ i ∈ range d.numBasis, f i = 1 := by
  rcases k with _ | k
  · exact absurd hd (by rw [C41_order_zero]; simp)
  · rw [tetCreate_ok] at hd
    injection hd with hd
    subst hd
    have hl := tetTypes_length k
    refine ⟨fun i => tetPhi ((k + 1 : Nat) : K) ((tetTypes k).getD i (0, 0, 0, 0)) x, fun i hi => ?_, ?_⟩
    · have hi : i < tet (k + 2) := hi
      apply tetValue_ok
      simp [hl, hi]
    · refine Eq.trans (list_map_sum_range (tetTypes k) (fun t => tetPhi ((k + 1 : Nat) : K) t x) _ _ hl ?_) (tetPhi_sum k x)
      intro i a ha
      simp [ha]

example : ∃ d, tetCreate ℚ 3 = .ok d ∧ d.numBasis = 20 := ⟨_, tetCreate_ok 2, by decide⟩

/-! ## C43 -/

theorem getD_lambda {K : Type} [Field K] (x : Vec3 K) (v : Nat) : (tetLambda x).getD v 0 = baryCoord x v := by
  rcases v with _ | _ | _ | _ | v <;> simp [tetLambda, baryCoord]

theorem getD_type (t : TetType) (v : Nat) : (tetTypeList t).getD v 0 = tetWeight t v := by
  rcases v with _ | _ | _ | _ | v <;> simp [tetTypeList, tetWeight]

theorem forall_factors {K : Type} [Field K] (k : Nat) (x : Vec3 K) (t : TetType) :
    (∀ a ∈ tetFactors t, tetFac k x a ≠ 0) ↔ ∀ v p : Nat, p < tetWeight t v → baryCoord x v ≠ (p : K) / (k : K) := by
  constructor
  · intro h v p hp
    have hv : v < 4 := by
      by_contra h4
      unfold tetWeight at hp
      rw [if_neg (by omega), if_neg (by omega), if_neg (by omega), if_neg (by omega)] at hp
      omega
    have := h (v, p) ((mem_tetFactors _ _ _).2 ⟨hv, by rw [getD_type]; exact hp⟩)
    unfold tetFac at this
    rw [getD_lambda] at this
    exact fun e => this (sub_eq_zero.2 e)
  · rintro h ⟨v, p⟩ hm
    obtain ⟨hv, hp⟩ := (mem_tetFactors _ _ _).1 hm
    rw [getD_type] at hp
    unfold tetFac
    rw [getD_lambda]
    exact fun e => h v p hp (sub_eq_zero.1 e)

/-- **C43 off the lattice planes.** At a point none of whose barycentric coordinates is `p / k` with `p` below the DOF's weight, the
derivative routine returns the partial derivatives of the basis function. For order 1 this holds at every point. Full
statement: at every point and for every order; it is false from order 2 on, see `C43_not_a_number`. -/
theorem C43_derivatives_partial (k : Nat) (d : TetData ℝ) (hd : tetCreate ℝ k = .ok d) (i : Nat) (t : TetType)
    (ht : d.types[i]? = some t) (x : Vec3 ℝ) (hx : k = 1 ∨ ∀ v p : Nat, p < tetWeight t v → baryCoord x v ≠ (p : ℝ) / (k : ℝ)) :
    ∃ (f : ℝ → ℝ → ℝ → ℝ) (g0 g1 g2 : ℝ), (∀ a b c, tetValue d (a, b, c) i = .ok (f a b c)) ∧ tetDerivative d x i 0 = .ok g0 ∧
      tetDerivative d x i 1 = .ok g1 ∧ tetDerivative d x i 2 = .ok g2 ∧ HasPartials3At f x g0 g1 g2 := by
  rcases k with _ | k
  · exact absurd hd (by rw [C41_order_zero]; simp)
  rw [tetCreate_ok] at hd
  injection hd with hd
  subst hd
  have ht : (tetTypes k)[i]? = some t := ht
  refine ⟨fun a b c => tetPhi ((k + 1 : Nat) : ℝ) t (a, b, c), ?_⟩
  by_cases hk : k = 0
  · subst hk
    have hder := fun dir (h : dir < 3) => tetLambda_hasDeriv x dir h i (getCoord x dir)
    have hval : ∀ y, tetPhi ((0 + 1 : Nat) : ℝ) t y = (tetLambda y).getD i 0 := by
      intro y
      have h1 := tetValue_ok (K := ℝ) ht y
      unfold tetValue at h1
      rw [if_pos (show (tetRef ℝ 0).order = 1 from rfl), unchecked_ok_iff] at h1
      simp [h1]
    have hg : ∀ dir, tetDerivative (tetRef ℝ 0) x i dir = .ok ((tetGradLambda ℝ dir).getD i 0) := by
      intro dir
      unfold tetDerivative
      rw [if_pos (show (tetRef ℝ 0).order = 1 from rfl), unchecked_ok_iff]
      have hi : i < 4 := by
        have := (List.getElem?_eq_some_iff.1 ht).1
        rw [tetTypes_length] at this
        exact this
      simp [tetGradLambda, hi]
    refine ⟨_, _, _, fun a b c => tetValue_ok ht (a, b, c), hg 0, hg 1, hg 2, ?_⟩
    simp only [HasPartials3At, hval]
    exact ⟨hder 0 (by omega), hder 1 (by omega), hder 2 (by omega)⟩
  · have h0 := (forall_factors (k + 1) x t).2 (hx.resolve_left (by omega))
    have hg := fun dir => tetDerivative_ok hk ht x dir
    simp only [if_pos h0] at hg
    have hs := tetTypes_sum ht
    exact ⟨_, _, _, fun a b c => tetValue_ok ht (a, b, c), hg 0, hg 1, hg 2, tetPhi_hasDeriv hs x 0 (by omega) h0,
      tetPhi_hasDeriv hs x 1 (by omega) h0, tetPhi_hasDeriv hs x 2 (by omega) h0⟩

example : ∃ d, tetCreate ℝ 2 = .ok d ∧ d.types[4]? = some (1, 1, 0, 0) ∧
    ∀ v p : Nat, p < tetWeight (1, 1, 0, 0) v → baryCoord ((1 / 3, 1 / 5, 1 / 7) : Vec3 ℝ) v ≠ (p : ℝ) / ((2 : Nat) : ℝ) := by
  refine ⟨_, tetCreate_ok 1, by decide, ?_⟩
  intro v p hp
  rcases v with _ | _ | _ | _ | v <;> simp [tetWeight] at hp <;> subst hp <;> norm_num [baryCoord]

/-- **C43 fails on the lattice planes.** From order 2 on, the routine divides by zero exactly at the points where one of the barycentric
coordinates is `p / k` with `p` below the DOF's weight, in every direction. -/
theorem C43_not_a_number {K : Type} [Field K] [CharZero K] [DecidableEq K] (k : Nat) (hk : 2 ≤ k) (d : TetData K) (hd : tetCreate K k = .ok d)
    (i dir : Nat) (t : TetType) (ht : d.types[i]? = some t) (x : Vec3 K) :
    tetDerivative d x i dir = .error .notANumber ↔ ∃ v p : Nat, p < tetWeight t v ∧ baryCoord x v = (p : K) / (k : K) := by
  obtain ⟨k, rfl⟩ : ∃ m, k = m + 1 := ⟨k - 1, by omega⟩
  rw [tetCreate_ok] at hd
  injection hd with hd
  subst hd
  have ht : (tetTypes k)[i]? = some t := ht
  rw [tetDerivative_ok (by omega) ht]
  have h := forall_factors (k + 1) x t
  by_cases h0 : ∀ a ∈ tetFactors t, tetFac (k + 1) x a ≠ 0
  · rw [if_pos h0]
    constructor
    · intro he; cases he
    · rintro ⟨v, p, hp, he⟩
      exact absurd he (h.1 h0 v p hp)
  · rw [if_neg h0]
    refine ⟨fun _ => ?_, fun _ => rfl⟩
    rw [h] at h0
    push Not at h0
    obtain ⟨v, p, hp, he⟩ := h0
    exact ⟨v, p, hp, he⟩

/-- **C43, consequence.** From order 2 on no derivative of a basis function is available at the position of any other DOF. -/
theorem C43_nan_at_dofs {K : Type} [Field K] [CharZero K] [DecidableEq K] (k : Nat) (hk : 2 ≤ k) (d : TetData K) (hd : tetCreate K k = .ok d)
    (i j dir : Nat) (hi : i < d.numBasis) (hij : i ≠ j) (p : Vec3 K) (hp : d.positions[j]? = some p) :
    tetDerivative d p i dir = .error .notANumber := by
  obtain ⟨k, rfl⟩ : ∃ m, k = m + 1 := ⟨k - 1, by omega⟩
  have hd0 := hd
  rw [tetCreate_ok] at hd
  injection hd with hd
  subst hd
  have hi : i < tet (k + 2) := hi
  have hl := tetTypes_length k
  obtain ⟨t, ht⟩ : ∃ t, (tetTypes k)[i]? = some t := ⟨_, List.getElem?_eq_getElem (by omega)⟩
  have hj : j < (tetTypes k).length := by
    have := (List.getElem?_eq_some_iff.1 hp).1
    have h2 : (tetRef K k).positions.length = (tetTypes k).length := List.length_map _
    omega
  obtain ⟨t', ht'⟩ : ∃ t, (tetTypes k)[j]? = some t := ⟨_, List.getElem?_eq_getElem hj⟩
  rw [tetPos_get ht'] at hp
  injection hp with hp
  subst hp
  rw [C43_not_a_number (k + 1) hk _ hd0 i dir t ht]
  have hs := tetTypes_sum ht
  have hs' := tetTypes_sum ht'
  have hne : t ≠ t' := by
    intro he
    subst he
    obtain ⟨h1, h2⟩ := List.getElem?_eq_some_iff.1 ht
    obtain ⟨h3, h4⟩ := List.getElem?_eq_some_iff.1 ht'
    exact hij ((List.Nodup.getElem_inj_iff (tetTypes_nodup k)).1 (h2.trans h4.symm))
  obtain ⟨a, b, c, e⟩ := t
  obtain ⟨a', b', c', e'⟩ := t'
  simp only [ne_eq, Prod.mk.injEq] at hs hs' hne
  by_cases h1 : a' < a
  · exact ⟨0, a', h1, tet_bary (K := K) (t := (a', b', c', e')) hs'⟩
  · by_cases h2 : b' < b
    · exact ⟨1, b', h2, rfl⟩
    · by_cases h3 : c' < c
      · exact ⟨2, c', h3, rfl⟩
      · exact ⟨3, e', by simp only [tetWeight]; norm_num; omega, rfl⟩

example : ∃ d, tetCreate ℚ 2 = .ok d ∧ tetDerivative d (0, 0, 0) 4 0 = .error .notANumber := by
  have hp : (tetRef ℚ 1).positions[0]? = some (0, 0, 0) := by
    rw [tetPos_get (t := (2, 0, 0, 0)) (by decide)]; simp [tetPos]
  exact ⟨_, tetCreate_ok 1, C43_nan_at_dofs 2 (by norm_num) _ (tetCreate_ok 1) 4 0 0 (by decide) (by norm_num) _ hp⟩

end PolyDiM
