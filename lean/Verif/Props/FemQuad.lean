import Verif.Lemmas.FemQuad
import Verif.Lemmas.FemTriangle
import Verif.Spec.Geometry
import Verif.Spec.Calculus2

/-!
# C39, C40, C58: the quadrilateral Lagrange element

About `quadCreate`, `quadValue`, `quadDerivative`, `quadSpace`, `quadDof`, `quadPhysValue`, `quadPhysDerivative` of
`Verif/Model/FemQuad.lean`; the vocabulary is in `Verif/Spec/Geometry.lean` and `Verif/Spec/Calculus2.lean`.
-/

namespace PolyDiM
open Finset Spec

/-- The coordinates of the one-dimensional DOFs: the two ends, then the interior lattice points. -/
def Spec.latticeCoord (K : Type) [Field K] (k a : Nat) : K := if a = 0 then 0 else if a = 1 then 1 else ((a - 1 : Nat) : K) / (k : K)

theorem equi_getD {K : Type} [Field K] [CharZero K] (k a : Nat) (ha : a < k + 2) : (equi K k).getD a 0 = latticeCoord K (k + 1) a := by
  unfold equi latticeCoord
  rw [fem1Pos_linSpaced]
  rcases a with _ | _ | a
  · rfl
  · rfl
  · have : a < k := by omega
    simp [this]

theorem quadTypes_edge (k j : Nat) (hj : j < k) : (quadTypes k)[4 + j]? = some (j + 2, 0) ∧ (quadTypes k)[4 + k + j]? = some (1, j + 2) ∧
    (quadTypes k)[4 + 2 * k + j]? = some (j + 2, 1) ∧ (quadTypes k)[4 + 3 * k + j]? = some (0, j + 2) := by
  unfold quadTypes
  refine ⟨?_, ?_, ?_, ?_⟩
  · rw [List.getElem?_append_left (by simp; omega), List.getElem?_append_right (by simp), List.getElem?_append_left (by simp; omega),
      List.getElem?_append_left (by simp; omega), List.getElem?_append_left (by simp; omega)]
    simp [hj]
  · rw [List.getElem?_append_left (by simp; omega), List.getElem?_append_right (by simp; omega), List.getElem?_append_left (by simp; omega),
      List.getElem?_append_left (by simp; omega), List.getElem?_append_right (by simp; omega)]
    simp only [List.length_map, List.length_range, List.length_cons, List.length_nil]
    rw [show 4 + k + j - (0 + 1 + 1 + 1 + 1) - k = j by omega]
    simp [hj]
  · rw [List.getElem?_append_left (by simp; omega), List.getElem?_append_right (by simp; omega), List.getElem?_append_left (by simp; omega),
      List.getElem?_append_right (by simp; omega)]
    simp only [List.length_append, List.length_map, List.length_range, List.length_cons, List.length_nil]
    rw [show 4 + 2 * k + j - (0 + 1 + 1 + 1 + 1) - (k + k) = j by omega]
    simp [hj]
  · rw [List.getElem?_append_left (by simp; omega), List.getElem?_append_right (by simp; omega), List.getElem?_append_right (by simp; omega)]
    simp only [List.length_append, List.length_map, List.length_range, List.length_cons, List.length_nil]
    rw [show 4 + 3 * k + j - (0 + 1 + 1 + 1 + 1) - (k + k + k) = j by omega]
    simp [hj]

/-- **C39, layout.** For every order `k ≥ 1` the types run over all pairs of 1D DOFs exactly once, positions are the tensor lattice points,
the four vertices come first in counter-clockwise order, then the four edges, then the interior. -/
theorem C39_layout {K : Type} [Field K] [CharZero K] (k : Nat) (hk : 1 ≤ k) :
    ∃ d, quadCreate K k = .ok d ∧ d.order = k ∧ d.num0D = 1 ∧ d.num1D = k - 1 ∧ d.num2D = (k - 1) * (k - 1) ∧
      d.numBasis = (k + 1) * (k + 1) ∧ d.types.length = d.numBasis ∧ d.positions.length = d.numBasis ∧ d.types.Nodup ∧
      (∀ a b : Nat, (a, b) ∈ d.types ↔ a ≤ k ∧ b ≤ k) ∧
      (∀ i a b : Nat, d.types[i]? = some (a, b) → d.positions[i]? = some (latticeCoord K k a, latticeCoord K k b)) ∧
      (d.positions.take 4 = [(0, 0), (1, 0), (1, 1), (0, 1)]) ∧
      (∀ j, j < k - 1 → d.types[4 + j]? = some (j + 2, 0) ∧ d.types[4 + (k - 1) + j]? = some (1, j + 2) ∧
        d.types[4 + 2 * (k - 1) + j]? = some (j + 2, 1) ∧ d.types[4 + 3 * (k - 1) + j]? = some (0, j + 2)) ∧
      ∀ i a b : Nat, 4 * k ≤ i → d.types[i]? = some (a, b) → 2 ≤ a ∧ 2 ≤ b := by
  obtain ⟨k, rfl⟩ : ∃ m, k = m + 1 := ⟨k - 1, by omega⟩
  refine ⟨_, quadCreate_ok k, rfl, rfl, rfl, rfl, rfl, quadTypes_length k, ?_, quadTypes_nodup k, ?_, ?_, ?_, quadTypes_edge k, ?_⟩
  · show ((quadTypes k).map _).length = _
    rw [List.length_map, quadTypes_length]
    rfl
  · intro a b
    show (a, b) ∈ quadTypes k ↔ _
    rw [mem_quadTypes]
    simp only
    omega
  · intro i a b h
    have h : (quadTypes k)[i]? = some (a, b) := h
    have hm := (mem_quadTypes k _).1 (List.mem_of_getElem? h)
    show ((quadTypes k).map fun t => ((equi K k).getD t.1 0, (equi K k).getD t.2 0))[i]? = _
    rw [List.getElem?_map, h, Option.map_some, equi_getD _ _ hm.1, equi_getD _ _ hm.2]
  · show ((quadTypes k).map fun t => ((equi K k).getD t.1 0, (equi K k).getD t.2 0)).take 4 = _
    unfold quadTypes
    rw [List.append_assoc, List.map_append, List.take_append_of_le_length (by simp)]
    simp only [List.map_cons, List.map_nil]
    rw [equi_getD _ 0 (by omega), equi_getD _ 1 (by omega)]
    simp [latticeCoord]
  · intro i a b hi h
    have hm : (a, b) ∈ (List.range k).flatMap fun d1 => (List.range k).map fun d2 => (d2 + 2, d1 + 2) := by
      have h : (quadTypes k)[i]? = some (a, b) := h
      unfold quadTypes at h
      rw [List.getElem?_append_right (by simp; omega)] at h
      exact List.mem_of_getElem? h
    simp only [List.mem_flatMap, List.mem_map, List.mem_range, Prod.mk.injEq] at hm
    obtain ⟨d1, -, d2, -, h1, h2⟩ := hm
    omega

example : ∃ d, quadCreate ℚ 2 = .ok d ∧ d.types = [(0, 0), (1, 0), (1, 1), (0, 1), (2, 0), (1, 2), (2, 1), (0, 2), (2, 2)] :=
  ⟨_, quadCreate_ok 1, by decide⟩

/-- **C39, order 0** is rejected. -/
theorem C39_order_zero (K : Type) [Field K] : quadCreate K 0 = .error .runtimeError := rfl

/-- The one-dimensional basis of the element. -/
theorem bnd_basis (k : Nat) : ∃ f f' : Nat → ℝ → ℝ,
    (∀ i x, i < k + 2 → fem1Value (bndRef ℝ k) x i = .ok (f i x) ∧ fem1Derivative (bndRef ℝ k) x i = .ok (f' i x) ∧
      HasDerivAt (f i) (f' i x) x) ∧ (∀ x, ∑ i ∈ range (k + 2), f i x = 1) ∧
    ∀ i j, i < k + 2 → j < k + 2 → f i ((equi ℝ k).getD j 0) = if i = j then 1 else 0 := by
  obtain ⟨-, -, hnod, f, f', hff, hs⟩ := C55_basis (k + 1) .equispaced [] (by simp) (bndRef ℝ k) (bndRef_ok k)
  refine ⟨f, f', hff, hs, fun i j hi hj => ?_⟩
  have hl := equi_length (K := ℝ) k
  have hp : (bndRef ℝ k).positions[j]? = some ((equi ℝ k).getD j 0) := by
    show (equi ℝ k)[j]? = _
    simp [hl, hj]
  have := hnod i j _ hi hp
  rw [(hff i _ hi).1] at this
  injection this

theorem quad_basis (k : Nat) : ∃ f f' : Nat → ℝ → ℝ,
    (∀ i a b x y, (quadTypes k)[i]? = some (a, b) → quadValue (quadRef ℝ k) x y i = .ok (f a x * f b y) ∧
      quadDerivative (quadRef ℝ k) x y i 0 = .ok (f' a x * f b y) ∧ quadDerivative (quadRef ℝ k) x y i 1 = .ok (f a x * f' b y)) ∧
    (∀ a x, a < k + 2 → HasDerivAt (f a) (f' a x) x) ∧ (∀ x, ∑ i ∈ range (k + 2), f i x = 1) ∧
    ∀ i j, i < k + 2 → j < k + 2 → f i ((equi ℝ k).getD j 0) = if i = j then 1 else 0 := by
  obtain ⟨f, f', hff, hs, hnod⟩ := bnd_basis k
  refine ⟨f, f', fun i a b x y h => ?_, fun a x ha => (hff a x ha).2.2, hs, hnod⟩
  have hm := (mem_quadTypes k _).1 (List.mem_of_getElem? h)
  have hu : unchecked (quadRef ℝ k).types i = .ok (a, b) := (unchecked_ok_iff _ _ _).2 h
  have hb : (quadRef ℝ k).bnd = bndRef ℝ k := rfl
  unfold quadValue quadDerivative
  rw [hu, except_ok_bind, hb, except_ok_bind, except_ok_bind]
  simp only [(hff a x hm.1).1, (hff a x hm.1).2.1, (hff b y hm.2).1, (hff b y hm.2).2.1, except_ok_bind, if_true, one_ne_zero, if_false,
    and_self]

/-- **C39, nodal.** Every basis function is `1` at its own DOF and `0` at the others. -/
theorem C39_nodal (k : Nat) (d : QuadData ℝ) (hd : quadCreate ℝ k = .ok d) (i j : Nat) (p : ℝ × ℝ) (hi : i < d.numBasis)
    (hp : d.positions[j]? = some p) : quadValue d p.1 p.2 i = .ok (if i = j then 1 else 0) := by
  rcases k with _ | k
  · cases hd
  rw [quadCreate_ok] at hd
  injection hd with hd
  subst hd
  obtain ⟨f, f', hv, -, -, hnod⟩ := quad_basis k
  have hl := quadTypes_length k
  have hi : i < (k + 2) * (k + 2) := hi
  have hj : j < (quadTypes k).length := by
    have := (List.getElem?_eq_some_iff.1 hp).1
    have h2 : (quadRef ℝ k).positions.length = (quadTypes k).length := List.length_map _
    omega
  obtain ⟨⟨a, b⟩, ht⟩ : ∃ t, (quadTypes k)[i]? = some t := ⟨_, List.getElem?_eq_getElem (by omega)⟩
  obtain ⟨⟨a', b'⟩, ht'⟩ : ∃ t, (quadTypes k)[j]? = some t := ⟨_, List.getElem?_eq_getElem hj⟩
  have hm := (mem_quadTypes k _).1 (List.mem_of_getElem? ht)
  have hm' := (mem_quadTypes k _).1 (List.mem_of_getElem? ht')
  have hp' : (quadRef ℝ k).positions[j]? = some ((equi ℝ k).getD a' 0, (equi ℝ k).getD b' 0) := by
    show ((quadTypes k).map fun t => ((equi ℝ k).getD t.1 0, (equi ℝ k).getD t.2 0))[j]? = _
    rw [List.getElem?_map, ht']
    rfl
  rw [hp'] at hp
  injection hp with hp
  subst hp
  rw [(hv i a b _ _ ht).1, hnod a a' hm.1 hm'.1, hnod b b' hm.2 hm'.2]
  congr 1
  have : i = j ↔ a = a' ∧ b = b' := by
    constructor
    · rintro rfl
      rw [ht] at ht'
      injection ht' with ht'
      simpa using ht'
    · rintro ⟨rfl, rfl⟩
      obtain ⟨h1, h2⟩ := List.getElem?_eq_some_iff.1 ht
      obtain ⟨h3, h4⟩ := List.getElem?_eq_some_iff.1 ht'
      exact (List.Nodup.getElem_inj_iff (quadTypes_nodup k)).1 (h2.trans h4.symm)
  rw [if_congr this rfl rfl]
  by_cases h1 : a = a' <;> by_cases h2 : b = b' <;> simp [h1, h2]

/-- **C39, derivatives.** The derivative routine returns the partial derivatives of the value routine. -/
theorem C39_derivatives (k : Nat) (d : QuadData ℝ) (hd : quadCreate ℝ k = .ok d) (i : Nat) (hi : i < d.numBasis) :
    ∃ f fx fy : ℝ → ℝ → ℝ, (∀ x y, quadValue d x y i = .ok (f x y)) ∧ (∀ x y, quadDerivative d x y i 0 = .ok (fx x y)) ∧
      (∀ x y, quadDerivative d x y i 1 = .ok (fy x y)) ∧ HasPartials2 f fx fy := by
  rcases k with _ | k
  · cases hd
  rw [quadCreate_ok] at hd
  injection hd with hd
  subst hd
  obtain ⟨f, f', hv, hder, -, -⟩ := quad_basis k
  have hl := quadTypes_length k
  have hi : i < (k + 2) * (k + 2) := hi
  obtain ⟨⟨a, b⟩, ht⟩ : ∃ t, (quadTypes k)[i]? = some t := ⟨_, List.getElem?_eq_getElem (by omega)⟩
  have hm := (mem_quadTypes k _).1 (List.mem_of_getElem? ht)
  exact ⟨fun x y => f a x * f b y, fun x y => f' a x * f b y, fun x y => f a x * f' b y, fun x y => (hv i a b x y ht).1,
    fun x y => (hv i a b x y ht).2.1, fun x y => (hv i a b x y ht).2.2,
    fun x y => ⟨(hder a x hm.1).mul_const _, (hder b y hm.2).const_mul _⟩⟩

/-- **C39, partition of unity.** -/
theorem C39_partition_of_unity (k : Nat) (d : QuadData ℝ) (hd : quadCreate ℝ k = .ok d) (x y : ℝ) :
    ∃ f : Nat → ℝ, (∀ i, i < d.numBasis → quadValue d x y i = .ok (f i)) ∧ ∑ i ∈ range d.numBasis, f i = 1 := by
  rcases k with _ | k
  · cases hd
  rw [quadCreate_ok] at hd
  injection hd with hd
  subst hd
  obtain ⟨f, f', hv, -, hs, -⟩ := quad_basis k
  have hl := quadTypes_length k
  refine ⟨fun i => f ((quadTypes k).getD i (0, 0)).1 x * f ((quadTypes k).getD i (0, 0)).2 y, fun i hi => ?_, ?_⟩
  · have hi : i < (k + 2) * (k + 2) := hi
    refine (hv i _ _ x y ?_).1
    simp [hl, hi]
  · refine Eq.trans (list_map_sum_range (quadTypes k) (fun t => f t.1 x * f t.2 y) _ _ hl ?_) ?_
    · intro i a ha
      simp [ha]
    · rw [← List.sum_toFinset _ (quadTypes_nodup k)]
      have : (quadTypes k).toFinset = range (k + 2) ×ˢ range (k + 2) := by
        ext t
        rw [List.mem_toFinset, mem_quadTypes, mem_product, mem_range, mem_range]
      rw [this, sum_product]
      simp only [← mul_sum, hs, mul_one]

example : ∃ d, quadCreate ℝ 3 = .ok d ∧ 15 < d.numBasis ∧ d.positions[2]? = some (1, 1) := by
  obtain ⟨d, hd, -, -, -, -, hn, -, -, -, -, -, hv, -⟩ := C39_layout (K := ℝ) 3 (by norm_num)
  refine ⟨d, hd, by rw [hn]; norm_num, ?_⟩
  have := congrArg (fun l => l[2]?) hv
  simpa using this

/-! ## C40 -/

section
variable {K : Type} [Field K]

/-- **C40, order.** The DOF order is a permutation of the local DOFs and its own inverse; anything but four vertices throws. -/
theorem C40_involution (k : Nat) (hk : 1 ≤ k) (d : QuadData K) (hd : quadCreate K k = .ok d) (isZero : K → Bool) (V : Nat → K × K)
    (dirs : List Bool) (hn : dirs.length = 4) :
    (∃ s, quadSpace d isZero 4 V dirs = .ok s ∧ s.ref = d ∧ s.vertices = V ∧ s.kind = quadKind isZero V ∧
      s.order.Perm (List.range d.numBasis) ∧ ∀ c i : Nat, s.order[c]? = some i → s.order[i]? = some c) ∧
    ∀ nv, nv ≠ 4 → quadSpace d isZero nv V dirs = .error .runtimeError := by
  obtain ⟨k, rfl⟩ : ∃ m, k = m + 1 := ⟨k - 1, by omega⟩
  rw [quadCreate_ok] at hd
  injection hd with hd
  subst hd
  refine ⟨⟨_, quadSpace_ok k isZero V dirs (by omega), rfl, rfl, rfl, ?_, fun c i h => meshRuns_invol _ _ _ _ _ _ h⟩,
    fun nv h => by unfold quadSpace; rw [if_pos h]⟩
  refine (meshRuns_perm _ _ _ _).trans (List.Perm.of_eq ?_)
  congr 1
  show 4 + 4 * k + k * k = (k + 2) * (k + 2)
  ring

/-- **C40, edges.** The `j`-th DOF of local edge `e` is at parameter `(j + 1) / k` of the edge in the direction stored by the mesh, for
both kinds of quadrilateral and every orientation pattern. -/
theorem C40_edge_points [CharZero K] (k : Nat) (hk : 1 ≤ k) (d : QuadData K) (hd : quadCreate K k = .ok d) (isZero : K → Bool)
    (hz : ∀ a, isZero a = true → a = 0) (V : Nat → K × K) (dirs : List Bool) (hn : dirs.length = 4) (s : QuadSpace K)
    (hs : quadSpace d isZero 4 V dirs = .ok s) (e j : Nat) (dir : Bool) (he : dirs[e]? = some dir) (hj : j < k - 1) :
    quadDof s (4 + e * (k - 1) + j) = .ok (segPoint (polyEdge 4 V dir e).1 (polyEdge 4 V dir e).2 (((j + 1 : Nat) : K) / (k : K))) := by
  obtain ⟨k, rfl⟩ : ∃ m, k = m + 1 := ⟨k - 1, by omega⟩
  obtain ⟨d', hd', -, -, -, -, -, -, -, -, -, hpos, -, hedge, -⟩ := C39_layout (K := K) (k + 1) hk
  rw [hd] at hd'
  injection hd' with hd'
  subst hd'
  rw [quadCreate_ok] at hd
  injection hd with hd
  subst hd
  rw [quadSpace_ok k isZero V dirs (by omega)] at hs
  injection hs with hs
  subst hs
  have he4 : e < 4 := by
    have := (List.getElem?_eq_some_iff.1 he).1
    omega
  have hdir : dirs.getD e true = dir := by simp [he]
  simp only [Nat.add_sub_cancel] at hj hedge ⊢
  have hk0 : ((k + 1 : Nat) : K) ≠ 0 := Nat.cast_ne_zero.2 (by omega)
  have hcast2 : ((k - 1 - j + 1 : Nat) : K) = ((k + 1 : Nat) : K) - ((j + 1 : Nat) : K) := by
    rw [← Nat.cast_sub (by omega)]; congr 1; omega
  have hF : ∀ (x y : K), (x = 0 ∨ x = 1 ∨ y = 0 ∨ y = 1) → quadF (quadKind isZero V) V (x, y) =
      ((1 - x) * (1 - y) * (V 0).1 + x * (1 - y) * (V 1).1 + x * y * (V 2).1 + (1 - x) * y * (V 3).1,
       (1 - x) * (1 - y) * (V 0).2 + x * (1 - y) * (V 1).2 + x * y * (V 2).2 + (1 - x) * y * (V 3).2) := by
    intro x y _
    unfold quadKind
    split
    · next h =>
      rw [Bool.and_eq_true] at h
      have h1 := hz _ h.1
      have h2 := hz _ h.2
      unfold quadF
      ext
      · simp only; linear_combination -(x * y) * h1
      · simp only; linear_combination -(x * y) * h2
    · rfl
  have hpoint : ∀ (b : Bool) (e' : Nat), e' < 4 → [dirs.getD 0 true, dirs.getD 1 true, !dirs.getD 2 true, !dirs.getD 3 true][e']? = some b →
      ∀ (t0 t1 : Nat), (quadRef K k).types[if b then 4 + e' * k + j else 4 + e' * k + (k - 1 - j)]? = some (t0, t1) →
      (latticeCoord K (k + 1) t0 = 0 ∨ latticeCoord K (k + 1) t0 = 1 ∨ latticeCoord K (k + 1) t1 = 0 ∨ latticeCoord K (k + 1) t1 = 1) →
      quadDof ⟨quadRef K k, quadKind isZero V, V, meshRuns 4 k [dirs.getD 0 true, dirs.getD 1 true, !dirs.getD 2 true, !dirs.getD 3 true]
        (k * k)⟩ (4 + e' * k + j) = .ok (quadF (quadKind isZero V) V (latticeCoord K (k + 1) t0, latticeCoord K (k + 1) t1)) := by
    intro b e' _ hb t0 t1 ht _
    unfold quadDof
    simp only [(unchecked_ok_iff _ _ _).2 (meshRuns_edge 4 k _ (k * k) e' j b hb hj), except_ok_bind,
      (unchecked_ok_iff _ _ _).2 (hpos _ _ _ ht)]
  have hlc : ∀ j, latticeCoord K (k + 1) (j + 2) = ((j + 1 : Nat) : K) / ((k + 1 : Nat) : K) := by
    intro j
    unfold latticeCoord
    rw [if_neg (by omega), if_neg (by omega)]
    congr 1
  have hl0 : latticeCoord K (k + 1) 0 = 0 := rfl
  have hl1 : latticeCoord K (k + 1) 1 = 1 := rfl
  have hjr : k - 1 - j < k := by omega
  have h0 := hedge j hj
  have h1 := hedge (k - 1 - j) hjr
  interval_cases e
  · cases dir
    · rw [hpoint false 0 (by omega) (by simpa using hdir) _ _ (by simpa using h1.1) (by simp [hl0]), hF _ _ (by simp [hl0]), hlc, hl0, hcast2]
      congr 1
      simp only [segPoint, polyEdge]
      norm_num
      constructor <;> field_simp <;> ring
    · rw [hpoint true 0 (by omega) (by simpa using hdir) _ _ (by simpa using h0.1) (by simp [hl0]), hF _ _ (by simp [hl0]), hlc, hl0]
      congr 1
      simp only [segPoint, polyEdge]
      norm_num
  · cases dir
    · rw [hpoint false 1 (by omega) (by simpa using hdir) _ _ (by simpa using h1.2.1) (by simp [hl1]), hF _ _ (by simp [hl1]), hlc, hl1, hcast2]
      congr 1
      simp only [segPoint, polyEdge]
      norm_num
      constructor <;> field_simp <;> ring
    · rw [hpoint true 1 (by omega) (by simpa using hdir) _ _ (by simpa using h0.2.1) (by simp [hl1]), hF _ _ (by simp [hl1]), hlc, hl1]
      congr 1
      simp only [segPoint, polyEdge]
      norm_num
  · cases dir
    · rw [hpoint true 2 (by omega) (by simpa using hdir) _ _ (by simpa using h0.2.2.1) (by simp [hl1]), hF _ _ (by simp [hl1]), hlc, hl1]
      congr 1
      simp only [segPoint, polyEdge]
      norm_num
      constructor <;> ring
    · rw [hpoint false 2 (by omega) (by simpa using hdir) _ _ (by simpa using h1.2.2.1) (by simp [hl1]), hF _ _ (by simp [hl1]), hlc, hl1, hcast2]
      congr 1
      simp only [segPoint, polyEdge]
      norm_num
      constructor <;> field_simp <;> ring
  · cases dir
    · rw [hpoint true 3 (by omega) (by simpa using hdir) _ _ (by simpa using h0.2.2.2) (by simp [hl0]), hF _ _ (by simp [hl0]), hlc, hl0]
      congr 1
      simp only [segPoint, polyEdge]
      norm_num
    · rw [hpoint false 3 (by omega) (by simpa using hdir) _ _ (by simpa using h1.2.2.2) (by simp [hl0]), hF _ _ (by simp [hl0]), hlc, hl0, hcast2]
      congr 1
      simp only [segPoint, polyEdge]
      norm_num
      constructor <;> field_simp <;> ring

/-- **C40, neighbours.** Two quadrilaterals that see the same mesh edge place its `j`-th DOF at the same point. -/
theorem C40_neighbours [CharZero K] (k : Nat) (hk : 1 ≤ k) (d : QuadData K) (hd : quadCreate K k = .ok d) (isZero : K → Bool)
    (hz : ∀ a, isZero a = true → a = 0) (V V' : Nat → K × K) (dirs dirs' : List Bool) (hn : dirs.length = 4) (hn' : dirs'.length = 4)
    (s s' : QuadSpace K) (hs : quadSpace d isZero 4 V dirs = .ok s) (hs' : quadSpace d isZero 4 V' dirs' = .ok s') (e e' j : Nat)
    (dir dir' : Bool) (he : dirs[e]? = some dir) (he' : dirs'[e']? = some dir') (hedge : polyEdge 4 V dir e = polyEdge 4 V' dir' e')
    (hj : j < k - 1) : ∃ P, quadDof s (4 + e * (k - 1) + j) = .ok P ∧ quadDof s' (4 + e' * (k - 1) + j) = .ok P := by
  refine ⟨_, C40_edge_points k hk d hd isZero hz V dirs hn s hs e j dir he hj, ?_⟩
  rw [C40_edge_points k hk d hd isZero hz V' dirs' hn' s' hs' e' j dir' he' hj, hedge]

end

/-- A trapezium with mixed orientations; the tolerance test is exact. -/
example : ∃ d s, quadCreate ℚ 3 = .ok d ∧
    quadSpace d (fun a => decide (a = 0)) 4 (fun v => [(0, 0), (3, 0), (2, 1), (0, 1)].getD v 0) [true, false, true, false] = .ok s ∧
    quadDof s 6 = .ok (segPoint (2, 1) (3, 0) (1 / 3)) := by
  obtain ⟨d, hd, -⟩ := C39_layout (K := ℚ) 3 (by norm_num)
  obtain ⟨⟨s, hs, -⟩, -⟩ := C40_involution 3 (by norm_num) d hd (fun a : ℚ => decide (a = 0))
    (fun v => [(0, 0), (3, 0), (2, 1), (0, 1)].getD v 0) [true, false, true, false] rfl
  refine ⟨d, s, hd, hs, ?_⟩
  have := C40_edge_points 3 (by norm_num) d hd _ (by simp) _ _ rfl s hs 1 0 false rfl (by norm_num)
  rw [this]
  norm_num [polyEdge]

/-! ## C58 -/

/-- **C58.** The physical derivatives reported in column `c` are the partial derivatives, in physical coordinates, of the values reported in
column `c`, for both kinds of quadrilateral: gathering and scattering agree because the order is an involution. `G` is the inverse
map and `J` its Jacobian, both computed by Gedim. -/
theorem C58_chain_rule (k : Nat) (hk : 1 ≤ k) (d : QuadData ℝ) (hd : quadCreate ℝ k = .ok d) (isZero : ℝ → Bool) (V : Nat → ℝ × ℝ)
    (dirs : List Bool) (hn : dirs.length = 4) (s : QuadSpace ℝ) (hs : quadSpace d isZero 4 V dirs = .ok s) (c : Nat) (hc : c < d.numBasis)
    (G : ℝ → ℝ → ℝ × ℝ) (J : ℝ → ℝ → Jac2 ℝ) (X Y : ℝ)
    (hx : HasDerivAt (fun t => (G t Y).1) (J X Y).i00 X ∧ HasDerivAt (fun t => (G t Y).2) (J X Y).i10 X)
    (hy : HasDerivAt (fun t => (G X t).1) (J X Y).i01 Y ∧ HasDerivAt (fun t => (G X t).2) (J X Y).i11 Y) :
    ∃ f : ℝ → ℝ → ℝ, (∀ X Y, quadPhysValue s (G X Y) c = .ok (f X Y)) ∧
      ∃ fx fy, quadPhysDerivative s (J X Y) (G X Y) c 0 = .ok fx ∧ quadPhysDerivative s (J X Y) (G X Y) c 1 = .ok fy ∧
        HasDerivAt (fun t => f t Y) fx X ∧ HasDerivAt (fun t => f X t) fy Y := by
  obtain ⟨⟨s', hs', href, -, -, hperm, hinv⟩, -⟩ := C40_involution k hk d hd isZero V dirs hn
  rw [hs] at hs'
  injection hs' with hs'
  subst hs'
  subst href
  have hnd : s.order.Nodup := hperm.nodup_iff.2 List.nodup_range
  have hlen : s.order.length = s.ref.numBasis := by rw [hperm.length_eq, List.length_range]
  obtain ⟨i, hi⟩ : ∃ b, s.order[c]? = some b := ⟨_, List.getElem?_eq_getElem (by omega)⟩
  have hil : i < s.ref.numBasis := List.mem_range.1 (hperm.mem_iff.1 (List.mem_of_getElem? hi))
  have hsc : scatterCol s.order (fun i => i) c = some i := scatterCol_eq _ _ _ _ hnd (hinv c i hi)
  rcases k with _ | k
  · omega
  have href := hd
  rw [quadCreate_ok] at hd
  injection hd with hd
  obtain ⟨f, f', hv, hder, -, -⟩ := quad_basis k
  rw [hd] at hv
  have hil' : i < (quadTypes k).length := by
    rw [quadTypes_length]
    rw [← hd] at hil
    exact hil
  obtain ⟨⟨a, b⟩, ht⟩ : ∃ t, (quadTypes k)[i]? = some t := ⟨_, List.getElem?_eq_getElem hil'⟩
  have hm := (mem_quadTypes k _).1 (List.mem_of_getElem? ht)
  have hV := fun x y => hv i a b x y ht
  have hG : ∀ dir, quadPhysDerivative s (J X Y) (G X Y) c dir = .ok (if dir = 0 then
      (J X Y).i00 * (f' a (G X Y).1 * f b (G X Y).2) + (J X Y).i10 * (f a (G X Y).1 * f' b (G X Y).2) else
      (J X Y).i01 * (f' a (G X Y).1 * f b (G X Y).2) + (J X Y).i11 * (f a (G X Y).1 * f' b (G X Y).2)) := by
    intro dir
    unfold quadPhysDerivative
    cases s.kind
    · simp only [(unchecked_ok_iff _ _ _).2 hi, except_ok_bind, (hV _ _).2.1, (hV _ _).2.2]
    · simp only [hsc, except_ok_bind, (hV _ _).2.1, (hV _ _).2.2]
      rw [add_comm ((J X Y).i11 * _)]
  refine ⟨fun X Y => f a (G X Y).1 * f b (G X Y).2, fun X Y => ?_, _, _, hG 0, hG 1, ?_, ?_⟩
  · unfold quadPhysValue
    rw [(unchecked_ok_iff _ _ _).2 hi, except_ok_bind]
    exact (hV _ _).1
  · have h1 := HasDerivAt.comp X (hder a (G X Y).1 hm.1) hx.1
    have h2 := HasDerivAt.comp X (hder b (G X Y).2 hm.2) hx.2
    refine (h1.mul h2).congr_deriv ?_
    rw [if_pos rfl]
    simp only [Function.comp]
    ring
  · have h1 := HasDerivAt.comp Y (hder a (G X Y).1 hm.1) hy.1
    have h2 := HasDerivAt.comp Y (hder b (G X Y).2 hm.2) hy.2
    refine (h1.mul h2).congr_deriv ?_
    rw [if_neg (by simp)]
    simp only [Function.comp]
    ring

/-- The hypotheses on the inverse map hold for a shear. -/
example : let G : ℝ → ℝ → ℝ × ℝ := fun X Y => (X - 2 * Y, Y)
    let J : Jac2 ℝ := ⟨1, -2, 0, 1⟩
    ∀ X Y, (HasDerivAt (fun t => (G t Y).1) J.i00 X ∧ HasDerivAt (fun t => (G t Y).2) J.i10 X) ∧
      (HasDerivAt (fun t => (G X t).1) J.i01 Y ∧ HasDerivAt (fun t => (G X t).2) J.i11 Y) := by
  intro G J X Y
  refine ⟨⟨(hasDerivAt_id X).sub_const _, hasDerivAt_const X _⟩, ⟨?_, hasDerivAt_id Y⟩⟩
  have := ((hasDerivAt_id Y).const_mul (2 : ℝ)).const_sub X
  simpa [G, J] using this

end PolyDiM
