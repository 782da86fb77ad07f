import Verif.Lemmas.FemTriangleSpace
import Verif.Props.FemTriangle
import Verif.Spec.Geometry

/-!
# C36-C38: second derivatives, mesh ordering and chain rule of the triangular element

About `triSecond`, `triSpace`, `triDof`, `triPhysValue`, `triPhysDerivative`, `triPhysLaplacian` of `Verif/Model/FemTriangle.lean`;
the vocabulary is in `Verif/Spec/Calculus2.lean`.
-/

namespace PolyDiM
open Spec Finset

/-! ## Small specification of a mapped triangle -/

namespace Spec

/-- The vertices of the reference triangle. -/
def refVertex {K : Type} [Field K] (e : Nat) : K × K := if e % 3 = 0 then (0, 0) else if e % 3 = 1 then (1, 0) else (0, 1)

/-- The vertices of the mapped triangle. -/
def triVertex {K : Type} [Field K] (m : TriMap K) (e : Nat) : K × K :=
  let v : K × K := refVertex e
  (m.b00 * v.1 + m.b01 * v.2 + m.o0, m.b10 * v.1 + m.b11 * v.2 + m.o1)

/-- The first and the last point of edge `e` in the direction in which the mesh stores it. -/
def meshEdge {K : Type} [Field K] (m : TriMap K) (dir : Bool) (e : Nat) : (K × K) × (K × K) :=
  if dir then (triVertex m e, triVertex m (e + 1)) else (triVertex m (e + 1), triVertex m e)

/-- The stored inverse is the inverse of the stored matrix. -/
def IsInverse {K : Type} [Field K] (m : TriMap K) : Prop :=
  m.i00 * m.b00 + m.i01 * m.b10 = 1 ∧ m.i00 * m.b01 + m.i01 * m.b11 = 0 ∧
    m.i10 * m.b00 + m.i11 * m.b10 = 0 ∧ m.i10 * m.b01 + m.i11 * m.b11 = 1

end Spec

/-! ## C36 -/

/-- **C36 for the orders up to 3.** The tables are the second partial derivatives of the basis functions at every point. Full
statement: for every order the routine returns the second derivatives or throws; it is false from order 4 on, see
`C36_false_order4`. -/
theorem C36_second_partial (k : Nat) (hk : k ≤ 3) (d : TriData ℝ) (hd : triCreate ℝ k = .ok d) (i : Nat) (hi : i < d.numBasis) :
    ∃ f : ℝ → ℝ → ℝ, (∀ x y, triValue d x y i = .ok (f x y)) ∧
      ∀ x y, HasSecond2 f x y (triSecond d x y i 0) (triSecond d x y i 1) (triSecond d x y i 2) (triSecond d x y i 3) := by
  obtain ⟨P, hv, h2⟩ := tri_cubic k hk d hd i hi
  refine ⟨P.eval, hv, fun x y => ?_⟩
  obtain ⟨h0, h1, h2, h3⟩ := h2 x y
  rw [← h0, ← h1, ← h2, ← h3]
  exact P.second x y

example : ∃ d, triCreate ℝ 3 = .ok d ∧ 9 < d.numBasis := by
  obtain ⟨d, hd, -, -, -, -, hn, -⟩ := C32_layout (K := ℝ) 3 (by norm_num)
  exact ⟨d, hd, by rw [hn]; norm_num⟩

/-- **C36 is false for order 4.** The routine returns zeros and does not throw, but the basis function of vertex 1 has second derivative
`44 / 3` in direction `x` at the origin. -/
theorem C36_false_order4 (d : TriData ℝ) (hd : triCreate ℝ 4 = .ok d) (f : ℝ → ℝ → ℝ) (hf : ∀ x y, triValue d x y 1 = .ok (f x y)) :
    triSecond d 0 0 1 0 = 0 ∧ ∀ a b c e, ¬ (HasSecond2 f 0 0 a b c e ∧ a = triSecond d 0 0 1 0) := by
  rw [triCreate_ok ℝ 3] at hd
  injection hd with hd
  change triRef ℝ 3 = d at hd
  subst hd
  have h0 : triSecond (triRef ℝ 3) 0 0 1 0 = 0 := rfl
  refine ⟨h0, ?_⟩
  rintro a b c e ⟨⟨fx, fy, hp, hxx, -⟩, ha⟩
  rw [h0] at ha
  subst ha
  have ht : (triTypes 3)[1]? = some (0, 4, 0) := rfl
  have hval : ∀ x y, f x y = 32 / 3 * x ^ 4 - 16 * x ^ 3 + 22 / 3 * x ^ 2 - x := by
    intro x y
    have := hf x y
    rw [triValue_ok ht] at this
    injection this with this
    rw [← this]
    simp only [triPhi, bq, prod_range_succ, range_zero, prod_empty]
    norm_num
    ring
  have hfx : ∀ x, fx x 0 = 128 / 3 * x ^ 3 - 48 * x ^ 2 + 44 / 3 * x - 1 := by
    intro x
    have h1 := (hp x 0).1
    have e : (fun s => f s 0) = fun s => 32 / 3 * s ^ 4 - 16 * s ^ 3 + 22 / 3 * s ^ 2 - s := funext fun s => hval s 0
    rw [e] at h1
    have h2 := ((((hasDerivAt_pow 4 x).const_mul (32 / 3 : ℝ)).sub ((hasDerivAt_pow 3 x).const_mul (16 : ℝ))).add
      ((hasDerivAt_pow 2 x).const_mul (22 / 3 : ℝ))).sub (hasDerivAt_id x)
    have h3 := h1.unique h2
    rw [h3]
    norm_num
    ring
  have e : (fun s => fx s 0) = fun s => 128 / 3 * s ^ 3 - 48 * s ^ 2 + 44 / 3 * s - 1 := funext hfx
  rw [e] at hxx
  have h2 := ((((hasDerivAt_pow 3 (0 : ℝ)).const_mul (128 / 3 : ℝ)).sub ((hasDerivAt_pow 2 (0 : ℝ)).const_mul (48 : ℝ))).add
      ((hasDerivAt_id (0 : ℝ)).const_mul (44 / 3 : ℝ))).sub (hasDerivAt_const (0 : ℝ) (1 : ℝ))
  have h3 := hxx.unique h2
  norm_num at h3

/-- The routine of the local space throws for the orders that the tables do not cover, so the zeros are not reported as Laplacians of
a mapped element. -/
theorem C36_laplacian_throws {K : Type} [Field K] (s : TriSpace K) (h : 3 < s.ref.order) (p : K × K) (c : Nat) :
    triPhysLaplacian s p c = .error .runtimeError := by
  unfold triPhysLaplacian
  rw [if_pos h]

example : ∃ d, triCreate ℚ 4 = .ok d ∧ ∀ m o, 3 < (TriSpace.mk d m o).ref.order := by
  obtain ⟨d, hd, ho, -⟩ := C32_layout (K := ℚ) 4 (by norm_num)
  exact ⟨d, hd, fun m o => by show 3 < d.order; omega⟩

/-! ## C37 -/

section
variable {K : Type} [Field K]

/-- **C37, creation.** For a triangle with three orientation flags the local space exists and its DOF order is a permutation of the
local DOFs. Anything but three vertices throws. -/
theorem C37_permutation [CharZero K] (k : Nat) (hk : 1 ≤ k) (d : TriData K) (hd : triCreate K k = .ok d) (dirs : List Bool)
    (hn : dirs.length = 3) (m : TriMap K) :
    (∃ s, triSpace d 3 dirs m = .ok s ∧ s.ref = d ∧ s.map = m ∧ s.order.Perm (List.range d.numBasis)) ∧
      ∀ nv, nv ≠ 3 → triSpace d nv dirs m = .error .runtimeError := by
  obtain ⟨k, rfl⟩ : ∃ m, k = m + 1 := ⟨k - 1, by omega⟩
  rw [triCreate_ok] at hd
  injection hd with hd
  change triRef K k = d at hd
  subst hd
  refine ⟨⟨_, triSpace_ok k dirs (by omega) m, rfl, rfl, ?_⟩, fun nv h => by unfold triSpace; rw [if_pos h]⟩
  have := meshOrder_perm k (triN2 k) (fun e => dirs.getD e true)
  unfold triN2 at this
  rw [tri_counts] at this
  exact this

/-- **C37, edges.** The `j`-th DOF of local edge `e` is at parameter `(j + 1) / k` of the edge in the direction stored by the mesh,
whatever the orientation flag. -/
theorem C37_edge_points [CharZero K] (k : Nat) (hk : 1 ≤ k) (d : TriData K) (hd : triCreate K k = .ok d) (dirs : List Bool)
    (hn : dirs.length = 3) (m : TriMap K) (s : TriSpace K) (hs : triSpace d 3 dirs m = .ok s) (e j : Nat) (dir : Bool)
    (he : dirs[e]? = some dir) (hj : j < k - 1) :
    triDof s (3 + e * (k - 1) + j) = .ok (segPoint (meshEdge m dir e).1 (meshEdge m dir e).2 (((j + 1 : Nat) : K) / (k : K))) := by
  obtain ⟨k, rfl⟩ : ∃ m, k = m + 1 := ⟨k - 1, by omega⟩
  obtain ⟨d', hd', -, -, -, -, -, -, -, -, -, hpos, -, -, -, hedge, -⟩ := C32_layout (K := K) (k + 1) hk
  rw [hd] at hd'
  injection hd' with hd'
  subst hd'
  rw [triCreate_ok] at hd
  injection hd with hd
  change triRef K k = d at hd
  subst hd
  rw [triSpace_ok k dirs (by omega) m] at hs
  injection hs with hs
  subst hs
  have he3 : e < 3 := by
    have := (List.getElem?_eq_some_iff.1 he).1
    omega
  have hdir : dirs.getD e true = dir := by simp [he]
  have hj : j < k := by simpa using hj
  have hk0 : ((k + 1 : Nat) : K) ≠ 0 := Nat.cast_ne_zero.2 (by omega)
  have hord := meshOrder_edge k (triN2 k) (fun e => dirs.getD e true) e j he3 hj
  simp only [hdir] at hord
  unfold triDof
  rw [Nat.add_sub_cancel]
  simp only [(unchecked_ok_iff _ _ _).2 hord, except_ok_bind]
  have hcast : ((k - (k - 1 - j) : Nat) : K) = ((j + 1 : Nat) : K) := by congr 1; omega
  have hcast2 : ((k - 1 - j + 1 : Nat) : K) = ((k + 1 : Nat) : K) - ((j + 1 : Nat) : K) := by
    rw [← Nat.cast_sub (by omega)]; congr 1; omega
  have hcast3 : ((k - j : Nat) : K) = ((k + 1 : Nat) : K) - ((j + 1 : Nat) : K) := by
    rw [← Nat.cast_sub (by omega)]; congr 1; omega
  interval_cases e
  all_goals
    cases dir
    · have hj' : k - 1 - j < k + 1 - 1 := by omega
      obtain ⟨h0, h1, h2⟩ := hedge (k - 1 - j) hj'
      simp only [Nat.add_sub_cancel, Nat.zero_mul, Nat.one_mul, Nat.add_zero] at h0 h1 h2 ⊢
      first
        | rw [if_neg (by simp), (unchecked_ok_iff _ _ _).2 (hpos _ _ _ _ h0), except_ok_bind]
        | rw [if_neg (by simp), (unchecked_ok_iff _ _ _).2 (hpos _ _ _ _ h1), except_ok_bind]
        | rw [if_neg (by simp), (unchecked_ok_iff _ _ _).2 (hpos _ _ _ _ h2), except_ok_bind]
      congr 1
      simp only [triF, segPoint, meshEdge, triVertex, refVertex, hcast, hcast2, Nat.cast_zero]
      norm_num
      constructor <;> field_simp <;> ring
    · have hj' : j < k + 1 - 1 := by omega
      obtain ⟨h0, h1, h2⟩ := hedge j hj'
      simp only [Nat.add_sub_cancel, Nat.zero_mul, Nat.one_mul, Nat.add_zero] at h0 h1 h2 ⊢
      first
        | rw [if_pos trivial, (unchecked_ok_iff _ _ _).2 (hpos _ _ _ _ h0), except_ok_bind]
        | rw [if_pos trivial, (unchecked_ok_iff _ _ _).2 (hpos _ _ _ _ h1), except_ok_bind]
        | rw [if_pos trivial, (unchecked_ok_iff _ _ _).2 (hpos _ _ _ _ h2), except_ok_bind]
      congr 1
      simp only [triF, segPoint, meshEdge, triVertex, refVertex, hcast3, Nat.cast_zero]
      norm_num
      constructor <;> field_simp <;> ring

/-- **C37, neighbours.** Two triangles that see the same mesh edge (same first and last point) place its `j`-th DOF at the same point,
whatever their local edge numbers and orientation flags. -/
theorem C37_neighbours [CharZero K] (k : Nat) (hk : 1 ≤ k) (d : TriData K) (hd : triCreate K k = .ok d) (dirs dirs' : List Bool)
    (hn : dirs.length = 3) (hn' : dirs'.length = 3) (m m' : TriMap K) (s s' : TriSpace K) (hs : triSpace d 3 dirs m = .ok s)
    (hs' : triSpace d 3 dirs' m' = .ok s') (e e' j : Nat) (dir dir' : Bool) (he : dirs[e]? = some dir) (he' : dirs'[e']? = some dir')
    (hedge : meshEdge m dir e = meshEdge m' dir' e') (hj : j < k - 1) :
    ∃ P, triDof s (3 + e * (k - 1) + j) = .ok P ∧ triDof s' (3 + e' * (k - 1) + j) = .ok P := by
  refine ⟨_, C37_edge_points k hk d hd dirs hn m s hs e j dir he hj, ?_⟩
  rw [C37_edge_points k hk d hd dirs' hn' m' s' hs' e' j dir' he' hj, hedge]

/-- Two triangles of the unit square sharing the diagonal, seen with opposite orientations. -/
example : meshEdge (⟨1, 0, 0, 1, 1, 0, 0, 1, 0, 0⟩ : TriMap ℚ) true 1 = meshEdge (⟨-1, 0, 0, -1, -1, 0, 0, -1, 1, 1⟩ : TriMap ℚ) false 1 := by
  simp [meshEdge, triVertex, refVertex]

/-- **C37, vertices.** DOF `v < 3` is vertex `v`. -/
theorem C37_vertices [CharZero K] (k : Nat) (hk : 1 ≤ k) (d : TriData K) (hd : triCreate K k = .ok d) (dirs : List Bool)
    (hn : dirs.length = 3) (m : TriMap K) (s : TriSpace K) (hs : triSpace d 3 dirs m = .ok s) (v : Nat) (hv : v < 3) :
    triDof s v = .ok (triVertex m v) := by
  obtain ⟨k, rfl⟩ : ∃ m, k = m + 1 := ⟨k - 1, by omega⟩
  obtain ⟨d', hd', -, -, -, -, -, -, -, -, -, hpos, h0, h1, h2, -⟩ := C32_layout (K := K) (k + 1) hk
  rw [hd] at hd'
  injection hd' with hd'
  subst hd'
  rw [triCreate_ok] at hd
  injection hd with hd
  change triRef K k = d at hd
  subst hd
  rw [triSpace_ok k dirs (by omega) m] at hs
  injection hs with hs
  subst hs
  have hk0 : ((k + 1 : Nat) : K) ≠ 0 := Nat.cast_ne_zero.2 (by omega)
  unfold triDof
  simp only [(unchecked_ok_iff _ _ _).2 (meshOrder_vertex k (triN2 k) (fun e => dirs.getD e true) v hv), except_ok_bind]
  interval_cases v
  · rw [(unchecked_ok_iff _ _ _).2 (hpos _ _ _ _ h0), except_ok_bind]
    simp [triF, triVertex, refVertex]
  · rw [(unchecked_ok_iff _ _ _).2 (hpos _ _ _ _ h1), except_ok_bind]
    simp only [triF, triVertex, refVertex, div_self hk0]
    simp
  · rw [(unchecked_ok_iff _ _ _).2 (hpos _ _ _ _ h2), except_ok_bind]
    simp only [triF, triVertex, refVertex, div_self hk0]
    simp

/-- **C37, values.** Values are reported in the order of the DOF points: the mapped basis function `i` is `1` at DOF point `i` and `0` at
the others. -/
theorem C37_values_order [CharZero K] (k : Nat) (hk : 1 ≤ k) (d : TriData K) (hd : triCreate K k = .ok d) (dirs : List Bool)
    (hn : dirs.length = 3) (m : TriMap K) (hm : IsInverse m) (s : TriSpace K) (hs : triSpace d 3 dirs m = .ok s) (i j : Nat)
    (hi : i < d.numBasis) (P : K × K) (hP : triDof s j = .ok P) : triPhysValue s P i = .ok (if i = j then 1 else 0) := by
  obtain ⟨⟨s', hs', href, hmap, hperm⟩, -⟩ := C37_permutation k hk d hd dirs hn m
  rw [hs] at hs'
  injection hs' with hs'
  subst hs'
  subst href; subst hmap
  have hlen : s.order.length = s.ref.numBasis := by rw [hperm.length_eq, List.length_range]
  have hnd : s.order.Nodup := hperm.nodup_iff.2 List.nodup_range
  unfold triDof at hP
  obtain ⟨a, ha, hP⟩ := (bind_ok_iff _ _ _).1 hP
  obtain ⟨p, hp, hP⟩ := (bind_ok_iff _ _ _).1 hP
  injection hP with hP
  subst hP
  have ha := (unchecked_ok_iff _ _ _).1 ha
  have hp := (unchecked_ok_iff _ _ _).1 hp
  obtain ⟨b, hb⟩ : ∃ b, s.order[i]? = some b := ⟨_, List.getElem?_eq_getElem (by omega)⟩
  have hbl : b < s.ref.numBasis := List.mem_range.1 (hperm.mem_iff.1 (List.mem_of_getElem? hb))
  unfold triPhysValue
  rw [(unchecked_ok_iff _ _ _).2 hb, except_ok_bind, triFInv_F hm, C33_nodal k s.ref hd b a p hbl hp]
  congr 1
  obtain ⟨hi', hbi⟩ := List.getElem?_eq_some_iff.1 hb
  obtain ⟨hj', haj⟩ := List.getElem?_eq_some_iff.1 ha
  have : b = a ↔ i = j := by
    rw [← hbi, ← haj]
    exact List.Nodup.getElem_inj_iff hnd
  simp [this]

end

/-- The hypotheses are met by a non-trivial map and mixed orientations. -/
example : IsInverse (⟨2, 1, 0, 3, 1 / 2, -1 / 6, 0, 1 / 3, 5, 7⟩ : TriMap ℚ) ∧ ∃ d s, triCreate ℚ 4 = .ok d ∧
    triSpace d 3 [true, false, true] ⟨2, 1, 0, 3, 1 / 2, -1 / 6, 0, 1 / 3, 5, 7⟩ = .ok s ∧
    triDof s 6 = .ok (segPoint (5 + 1, 7 + 3) (5 + 2, 7) (1 / 4)) := by
  refine ⟨by norm_num [IsInverse], ?_⟩
  obtain ⟨d, hd, -⟩ := C32_layout (K := ℚ) 4 (by norm_num)
  obtain ⟨⟨s, hs, -⟩, -⟩ := C37_permutation 4 (by norm_num) d hd [true, false, true] rfl ⟨2, 1, 0, 3, 1 / 2, -1 / 6, 0, 1 / 3, 5, 7⟩
  refine ⟨d, s, hd, hs, ?_⟩
  have := C37_edge_points 4 (by norm_num) d hd _ rfl _ s hs 1 0 false rfl (by norm_num)
  rw [this]
  norm_num [meshEdge, triVertex, refVertex]

/-- **C37 is false for the Laplacian.** Order 3 on the reference triangle with edge 0 stored backwards: column 3 of the values is the basis
function `f` below, whose Laplacian at `(1/3, 0)` differs from column 3 of the reported Laplacians. -/
theorem C37_laplacian_misordered :
    ∃ (d : TriData ℝ) (s : TriSpace ℝ) (f : ℝ → ℝ → ℝ) (v : ℝ), triCreate ℝ 3 = .ok d ∧
      triSpace d 3 [false, true, true] ⟨1, 0, 0, 1, 1, 0, 0, 1, 0, 0⟩ = .ok s ∧ (∀ x y, triPhysValue s (x, y) 3 = .ok (f x y)) ∧
      triPhysLaplacian s (1 / 3, 0) 3 = .ok v ∧ ∃ w, HasLaplacian2 f (1 / 3) 0 w ∧ v ≠ w := by
  have hd := triCreate_ok ℝ 2
  have hs := triSpace_ok (K := ℝ) 2 [false, true, true] (by simp) ⟨1, 0, 0, 1, 1, 0, 0, 1, 0, 0⟩
  obtain ⟨P, hv, h2⟩ := tri_cubic 3 le_rfl _ hd 4 (by decide)
  refine ⟨_, _, P.eval, _, hd, hs, ?_, rfl, P.dx.dx.eval (1 / 3) 0 + P.dy.dy.eval (1 / 3) 0, ⟨_, _, _, _, P.second (1 / 3) 0, rfl⟩, ?_⟩
  · intro x y
    rw [← hv]
    simp only [triPhysValue]
    have : (meshOrder 2 (triN2 2) fun e => [false, true, true].getD e true)[3]? = some 4 := by decide
    rw [(unchecked_ok_iff _ _ _).2 this, except_ok_bind]
    have e : triFInv (⟨1, 0, 0, 1, 1, 0, 0, 1, 0, 0⟩ : TriMap ℝ) (x, y) = (x, y) := by simp [triFInv]
    rw [e]
    rfl
  · rw [(h2 (1 / 3) 0).1, (h2 (1 / 3) 0).2.2.2]
    simp [triSecond, triRef, triFInv, triSecond3]
    norm_num

/-! ## C38 -/

/-- **C38, gradients.** The mapped derivatives are the partial derivatives, in physical coordinates, of the mapped basis functions. -/
theorem C38_chain_rule (k : Nat) (hk : 1 ≤ k) (d : TriData ℝ) (hd : triCreate ℝ k = .ok d) (dirs : List Bool)
    (hn : dirs.length = 3) (m : TriMap ℝ) (s : TriSpace ℝ) (hs : triSpace d 3 dirs m = .ok s) (c : Nat) (hc : c < d.numBasis) :
    ∃ f fx fy : ℝ → ℝ → ℝ, (∀ x y, triPhysValue s (x, y) c = .ok (f x y)) ∧ (∀ x y, triPhysDerivative s (x, y) c 0 = .ok (fx x y)) ∧
      (∀ x y, triPhysDerivative s (x, y) c 1 = .ok (fy x y)) ∧ HasPartials2 f fx fy := by
  obtain ⟨⟨s', hs', href, hmap, hperm⟩, -⟩ := C37_permutation k hk d hd dirs hn m
  rw [hs] at hs'
  injection hs' with hs'
  subst hs'
  subst href; subst hmap
  have hlen : s.order.length = s.ref.numBasis := by rw [hperm.length_eq, List.length_range]
  obtain ⟨b, hb⟩ : ∃ b, s.order[c]? = some b := ⟨_, List.getElem?_eq_getElem (by omega)⟩
  have hbl : b < s.ref.numBasis := List.mem_range.1 (hperm.mem_iff.1 (List.mem_of_getElem? hb))
  obtain ⟨d', hd', ho, -, -, -, -, htl, hpl, -⟩ := C32_layout (K := ℝ) k hk
  rw [hd] at hd'
  injection hd' with hd'
  subst hd'
  obtain ⟨f, gx, gy, hf, hgx, hgy, hder⟩ := tri_phys_deriv s.ref (by omega) s.map b _ _ (List.getElem?_eq_getElem (htl ▸ hbl))
    (List.getElem?_eq_getElem (hpl ▸ hbl))
  refine ⟨_, _, _, fun x y => ?_, fun x y => ?_, fun x y => ?_, hder⟩
  · unfold triPhysValue
    rw [(unchecked_ok_iff _ _ _).2 hb, except_ok_bind, hf]
  · unfold triPhysDerivative
    rw [(unchecked_ok_iff _ _ _).2 hb, except_ok_bind, hgx, except_ok_bind, hgy, except_ok_bind, if_pos rfl]
  · unfold triPhysDerivative
    rw [(unchecked_ok_iff _ _ _).2 hb, except_ok_bind, hgx, except_ok_bind, hgy, except_ok_bind, if_neg (by simp)]

/-- **C38, Laplacians, when the columns agree.** For the supported orders, column `c` of the Laplacians is the Laplacian of column `c` of the
values whenever the order leaves `c` in place (always for vertices and interior DOFs, for orders up to 2, and for edges stored in
the local direction). Full statement: for every column; it is false for edges stored backwards at order 3, see
`C37_laplacian_misordered`. -/
theorem C38_laplacian_partial (k : Nat) (hk : 1 ≤ k) (hk3 : k ≤ 3) (d : TriData ℝ) (hd : triCreate ℝ k = .ok d) (dirs : List Bool)
    (hn : dirs.length = 3) (m : TriMap ℝ) (s : TriSpace ℝ) (hs : triSpace d 3 dirs m = .ok s) (c : Nat) (hc : c < d.numBasis)
    (hcol : k ≤ 2 ∨ c < 3 ∨ 3 * k ≤ c ∨ ∀ e, e < 3 → dirs[e]? = some true) :
    ∃ f : ℝ → ℝ → ℝ, (∀ x y, triPhysValue s (x, y) c = .ok (f x y)) ∧
      ∀ x y, ∃ v, triPhysLaplacian s (x, y) c = .ok v ∧ HasLaplacian2 f x y v := by
  obtain ⟨P, hv, h2⟩ := tri_cubic k hk3 d hd c hc
  obtain ⟨k, rfl⟩ : ∃ m, k = m + 1 := ⟨k - 1, by omega⟩
  rw [triCreate_ok] at hd
  injection hd with hd
  change triRef ℝ k = d at hd
  subst hd
  rw [triSpace_ok k dirs (by omega) m] at hs
  injection hs with hs
  subst hs
  have hcn : c < 3 + 3 * k + triN2 k := by unfold triN2; rw [tri_counts]; exact hc
  have hfix : (meshOrder k (triN2 k) fun e => dirs.getD e true)[c]? = some c := by
    by_cases h1 : c < 3
    · exact meshOrder_vertex _ _ _ _ h1
    · by_cases h3 : 3 + 3 * k ≤ c
      · obtain ⟨j, rfl⟩ := Nat.exists_eq_add_of_le h3
        exact meshOrder_inner _ _ _ _ (by omega)
      · obtain ⟨e, j, he, hj, rfl⟩ : ∃ e j, e < 3 ∧ j < k ∧ c = 3 + e * k + j := by
          rcases Nat.lt_or_ge c (3 + k) with h | h
          · exact ⟨0, c - 3, by omega, by omega, by omega⟩
          · rcases Nat.lt_or_ge c (3 + 2 * k) with h' | h'
            · exact ⟨1, c - 3 - k, by omega, by omega, by omega⟩
            · exact ⟨2, c - 3 - 2 * k, by omega, by omega, by omega⟩
        rw [meshOrder_edge _ _ _ _ _ he hj]
        rcases hcol with h | h | h | h
        · congr 1
          have : k - 1 - j = j := by omega
          rw [this]
          simp
        · exact absurd h h1
        · omega
        · rw [if_pos (by simp [h e he])]
  refine ⟨fun X Y => P.eval (triFInv m (X, Y)).1 (triFInv m (X, Y)).2, fun x y => ?_, fun x y => ?_⟩
  · unfold triPhysValue
    rw [(unchecked_ok_iff _ _ _).2 hfix, except_ok_bind]
    exact hv _ _
  · refine ⟨_, ?_, cubic_laplacian P m x y⟩
    obtain ⟨e0, e1, e2, e3⟩ := h2 (triFInv m (x, y)).1 (triFInv m (x, y)).2
    unfold triPhysLaplacian
    rw [if_neg (by show ¬ k + 1 > 3; omega), if_pos (by exact hc), e0, e1, e2, e3]

example : ∃ d s, triCreate ℝ 3 = .ok d ∧ triSpace d 3 [true, false, true] ⟨2, 1, 0, 3, 1 / 2, -1 / 6, 0, 1 / 3, 5, 7⟩ = .ok s ∧
    9 < d.numBasis ∧ (3 ≤ 2 ∨ 9 < 3 ∨ 3 * 3 ≤ 9 ∨ ∀ e, e < 3 → [true, false, true][e]? = some true) := by
  obtain ⟨d, hd, -, -, -, -, hn, -⟩ := C32_layout (K := ℝ) 3 (by norm_num)
  obtain ⟨⟨s, hs, -⟩, -⟩ := C37_permutation 3 (by norm_num) d hd [true, false, true] rfl ⟨2, 1, 0, 3, 1 / 2, -1 / 6, 0, 1 / 3, 5, 7⟩
  exact ⟨d, s, hd, hs, by rw [hn]; norm_num, by norm_num⟩

end PolyDiM
