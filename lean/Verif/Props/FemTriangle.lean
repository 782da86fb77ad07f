import Verif.Lemmas.FemTriangleBasis
import Mathlib.Analysis.Calculus.Deriv.Comp

/-!
# C32-C35: the triangular Lagrange element on the reference triangle

About `triCreate`, `triValue`, `triDerivative` of `Verif/Model/FemTriangle.lean`.
-/

namespace PolyDiM
open Finset

/-- **C32.** DOF layout for every order `k ≥ 1`: the types are exactly the triples summing to `k`, each once; positions are the
lattice points; vertices first, then the `k - 1` DOFs of each edge from its first to its second vertex (edge 0 from vertex 0 to
vertex 1, edge 1 from 1 to 2, edge 2 from 2 to 0), then the interior ones. -/
theorem C32_layout {K : Type} [Field K] [CharZero K] (k : Nat) (hk : 1 ≤ k) :
    ∃ d, triCreate K k = .ok d ∧ d.order = k ∧ d.num0D = 1 ∧ d.num1D = k - 1 ∧ d.num2D = (k - 1) * (k - 2) / 2 ∧
      d.numBasis = (k + 1) * (k + 2) / 2 ∧ d.types.length = d.numBasis ∧ d.positions.length = d.numBasis ∧ d.types.Nodup ∧
      (∀ a b c : Nat, (a, b, c) ∈ d.types ↔ a + b + c = k) ∧
      (∀ i a b c : Nat, d.types[i]? = some (a, b, c) → d.positions[i]? = some ((b : K) / (k : K), (c : K) / (k : K))) ∧
      d.types[0]? = some (k, 0, 0) ∧ d.types[1]? = some (0, k, 0) ∧ d.types[2]? = some (0, 0, k) ∧
      (∀ j, j < k - 1 → d.types[3 + j]? = some (k - 1 - j, j + 1, 0) ∧
        d.types[3 + (k - 1) + j]? = some (0, k - 1 - j, j + 1) ∧ d.types[3 + 2 * (k - 1) + j]? = some (j + 1, 0, k - 1 - j)) ∧
      ∀ i a b c : Nat, 3 * k ≤ i → d.types[i]? = some (a, b, c) → 0 < a ∧ 0 < b ∧ 0 < c := by
  obtain ⟨k, rfl⟩ : ∃ m, k = m + 1 := ⟨k - 1, by omega⟩
  have hlen : ((triLattice (k + 1)).filter (cc (k + 1))).length + 3 + 3 * k = tri (k + 2) := by
    have := triTypes_length k
    unfold triTypes at this
    simp only [List.length_append, List.length_map, List.length_range, List.length_cons, List.length_nil] at this
    omega
  have hedge : ∀ (e j : Nat), e < 3 → j < k → (triTypes k)[3 + e * k + j]? = (((((List.range k).map fun d => (k - d, d + 1, 0)) ++
      ((List.range k).map fun d => (0, k - d, d + 1)) ++ ((List.range k).map fun d => (d + 1, 0, k - d))) : List TriType))[e * k + j]? := by
    intro e j he hj
    have hek : e * k + j < k + k + k := by
      have : e * k ≤ 2 * k := Nat.mul_le_mul_right k (by omega)
      omega
    unfold triTypes
    rw [List.getElem?_append_left (by simp; omega), List.getElem?_append_right (by simp; omega)]
    congr 1
    simp
    omega
  refine ⟨_, triCreate_ok K k, rfl, rfl, rfl, ?_, ?_, triTypes_length k, ?_, triTypes_nodup k, fun a b c => mem_triTypes k _, ?_,
    ?_, ?_, ?_, ?_, ?_⟩
  · show ((triLattice (k + 1)).filter (cc (k + 1))).length = (k + 1 - 1) * (k + 1 - 2) / 2
    rcases k with _ | m
    · have : tri (0 + 2) = 3 := rfl
      omega
    · have e : (m + 1 + 1 - 1) * (m + 1 + 1 - 2) / 2 = tri m := by
        show (m + 1) * m / 2 = _
        rw [Nat.mul_comm, tri_div']
      have e2 : tri (m + 1 + 2) = tri m + (m + 1) + (m + 2) + (m + 3) := rfl
      omega
  · exact (tri_div (k + 1)).symm
  · show ((triTypes k).map _).length = tri (k + 2)
    rw [List.length_map, triTypes_length]
  · intro i a b c h
    have := triPos_get (K := K) h
    simp only [mul_one_div] at this
    exact this
  · rfl
  · rfl
  · rfl
  · intro j hj
    have hj : j < k := by simpa using hj
    have h0 := hedge 0 j (by omega) hj
    have h1 := hedge 1 j (by omega) hj
    have h2 := hedge 2 j (by omega) hj
    simp only [Nat.zero_mul, Nat.add_zero, Nat.zero_add, Nat.one_mul] at h0 h1
    refine ⟨?_, ?_, ?_⟩
    · refine h0.trans ?_
      rw [List.getElem?_append_left (by simp; omega), List.getElem?_append_left (by simpa using hj)]
      simp [hj]
    · refine h1.trans ?_
      rw [List.getElem?_append_left (by simp; omega), List.getElem?_append_right (by simp)]
      simp [hj]
    · refine h2.trans ?_
      rw [List.getElem?_append_right (by simp; omega)]
      simp only [List.length_append, List.length_map, List.length_range, Nat.add_sub_cancel]
      rw [show 2 * k + j - (k + k) = j by omega]
      simp [hj]
  · intro i a b c hi h
    have hm : (a, b, c) ∈ ((triLattice (k + 1)).filter (cc (k + 1))).map (tyOf (k + 1)) := by
      have h : (triTypes k)[i]? = some (a, b, c) := h
      unfold triTypes at h
      rw [List.getElem?_append_right (by simp; omega)] at h
      exact List.mem_of_getElem? h
    simp only [List.mem_map, List.mem_filter, Prod.exists, mem_triLattice, tyOf, cc, decide_eq_true_eq, Prod.mk.injEq] at hm
    obtain ⟨i', j', h1, h2⟩ := hm
    omega

example : ∃ d, triCreate ℚ 3 = .ok d ∧ d.types =
    [(3, 0, 0), (0, 3, 0), (0, 0, 3), (2, 1, 0), (1, 2, 0), (0, 2, 1), (0, 1, 2), (1, 0, 2), (2, 0, 1), (1, 1, 1)] :=
  ⟨_, triCreate_ok ℚ 2, by decide⟩

/-- **C33.** Every basis function is `1` at its own DOF and `0` at the others, for every order. -/
theorem C33_nodal {K : Type} [Field K] [CharZero K] (k : Nat) (d : TriData K) (hd : triCreate K k = .ok d) (i j : Nat) (p : K × K)
    (hi : i < d.numBasis) (hp : d.positions[j]? = some p) : triValue d p.1 p.2 i = .ok (if i = j then 1 else 0) := by
  rcases k with _ | k
  · simp only [triCreate, if_true, Except.ok.injEq] at hd
    subst hd
    obtain ⟨hj, -⟩ := List.getElem?_eq_some_iff.1 hp
    simp at hi hj
    subst hi; subst hj
    rfl
  · rw [triCreate_ok] at hd
    injection hd with hd
    change triRef K k = d at hd
    subst hd
    have hi : i < tri (k + 2) := hi
    have hl := triTypes_length k
    obtain ⟨t, ht⟩ : ∃ t, (triTypes k)[i]? = some t := ⟨_, List.getElem?_eq_getElem (by omega)⟩
    have hj : j < (triTypes k).length := by
      have := (List.getElem?_eq_some_iff.1 hp).1
      have h2 : (triRef K k).positions.length = (triTypes k).length := List.length_map _
      omega
    obtain ⟨t', ht'⟩ : ∃ t, (triTypes k)[j]? = some t := ⟨_, List.getElem?_eq_getElem hj⟩
    rw [triPos_get ht'] at hp
    injection hp with hp
    subst hp
    rw [triValue_ok ht, triPhi_nodal k t t' (triTypes_sum ht) (triTypes_sum ht')]
    congr 1
    by_cases hij : i = j
    · subst hij
      rw [ht] at ht'
      injection ht' with ht'
      rw [if_pos ht', if_pos rfl]
    · rw [if_neg hij, if_neg]
      intro he
      subst he
      obtain ⟨h1, h2⟩ := List.getElem?_eq_some_iff.1 ht
      obtain ⟨h3, h4⟩ := List.getElem?_eq_some_iff.1 ht'
      exact hij ((List.Nodup.getElem_inj_iff (triTypes_nodup k)).1 (h2.trans h4.symm))

example : ∃ d, triCreate ℚ 2 = .ok d ∧ d.positions[3]? = some (1 / 2, 0) ∧ triValue d (1 / 2) 0 3 = .ok 1 ∧
    triValue d (1 / 2) 0 4 = .ok 0 := by
  obtain ⟨d, hd, -, -, -, -, hn, -, -, -, -, hpos, -, -, -, he, -⟩ := C32_layout (K := ℚ) 2 (by norm_num)
  have hp : d.positions[3]? = some (1 / 2, 0) := by
    rw [hpos 3 1 1 0 (he 0 (by norm_num)).1]; norm_num
  exact ⟨d, hd, hp, C33_nodal 2 d hd 3 3 _ (by omega) hp, C33_nodal 2 d hd 4 3 _ (by omega) hp⟩

/-- **C35.** The derivative routine returns the partial derivatives of the functions returned by the value routine, at every point
and for every order. -/
theorem C35_derivatives (k : Nat) (d : TriData ℝ) (hd : triCreate ℝ k = .ok d) (i : Nat) (hi : i < d.numBasis) :
    ∃ f fx fy : ℝ → ℝ → ℝ, (∀ x y, triValue d x y i = .ok (f x y)) ∧ (∀ x y, triDerivative d x y i 0 = .ok (fx x y)) ∧
      (∀ x y, triDerivative d x y i 1 = .ok (fy x y)) ∧
      ∀ x y, HasDerivAt (fun s => f s y) (fx x y) x ∧ HasDerivAt (fun s => f x s) (fy x y) y := by
  rcases k with _ | k
  · simp only [triCreate, if_true, Except.ok.injEq] at hd
    subst hd
    exact ⟨fun _ _ => 1, fun _ _ => 0, fun _ _ => 0, fun _ _ => rfl, fun _ _ => rfl, fun _ _ => rfl,
      fun x y => ⟨hasDerivAt_const x 1, hasDerivAt_const y 1⟩⟩
  · rw [triCreate_ok] at hd
    injection hd with hd
    change triRef ℝ k = d at hd
    subst hd
    have hi : i < tri (k + 2) := hi
    have hl := triTypes_length k
    obtain ⟨t, ht⟩ : ∃ t, (triTypes k)[i]? = some t := ⟨_, List.getElem?_eq_getElem (by omega)⟩
    exact tri_hasDeriv (triRef ℝ k) (by show k + 1 ≠ 0; omega) i t _ ht (triPos_get ht)

example : ∃ d, triCreate ℝ 5 = .ok d ∧ 20 < d.numBasis := by
  obtain ⟨d, hd, -, -, -, -, hn, -⟩ := C32_layout (K := ℝ) 5 (by norm_num)
  exact ⟨d, hd, by rw [hn]; norm_num⟩

/-- **C34, values.** The basis functions sum to one at every point, for every order. -/
theorem C34_partition_of_unity {K : Type} [Field K] [CharZero K] (k : Nat) (d : TriData K) (hd : triCreate K k = .ok d) (x y : K) :
    ∃ f : Nat → K, (∀ i, i < d.numBasis → triValue d x y i = .ok (f i)) ∧ ∑ i ∈ range d.numBasis, f i = 1 := by
  rcases k with _ | k
  · simp only [triCreate, if_true, Except.ok.injEq] at hd
    subst hd
    exact ⟨fun _ => 1, fun i _ => rfl, by simp⟩
  · rw [triCreate_ok] at hd
    injection hd with hd
    change triRef K k = d at hd
    subst hd
    have hl := triTypes_length k
    refine ⟨fun i => triPhi ((k + 1 : Nat) : K) ((triTypes k).getD i (0, 0, 0)) x y, fun i hi => ?_, ?_⟩
    · have hi : i < tri (k + 2) := hi
      apply triValue_ok
      simp [hl, hi]
    · refine Eq.trans (list_map_sum_range (triTypes k) (fun t => triPhi ((k + 1 : Nat) : K) t x y) _ _ hl ?_) (triPhi_sum k x y)
      intro i a ha
      simp [ha]

/-- **C34, gradients.** The gradients of the basis functions sum to zero at every point. -/
theorem C34_gradient_sum (k : Nat) (d : TriData ℝ) (hd : triCreate ℝ k = .ok d) (x y : ℝ) :
    ∃ g : Nat → Nat → ℝ, (∀ i dir, i < d.numBasis → dir < 2 → triDerivative d x y i dir = .ok (g i dir)) ∧
      ∀ dir, dir < 2 → ∑ i ∈ range d.numBasis, g i dir = 0 := by
  have h35 := fun i (hi : i < d.numBasis) => C35_derivatives k d hd i hi
  choose! f fx fy hf hfx hfy hder using h35
  have hsum : ∀ x y, ∑ i ∈ range d.numBasis, f i x y = 1 := by
    intro x y
    obtain ⟨g, hg, hs⟩ := C34_partition_of_unity k d hd x y
    rw [← hs]
    apply sum_congr rfl
    intro i hi
    have hi := mem_range.1 hi
    have := hf i hi x y
    rw [hg i hi] at this
    injection this with this
    exact this.symm
  refine ⟨fun i dir => if dir = 0 then fx i x y else fy i x y, ?_, ?_⟩
  · intro i dir hi hdir
    rcases (show dir = 0 ∨ dir = 1 by omega) with rfl | rfl
    · exact hfx i hi x y
    · exact hfy i hi x y
  · intro dir hdir
    rcases (show dir = 0 ∨ dir = 1 by omega) with rfl | rfl
    · have h1 := HasDerivAt.fun_sum (u := range d.numBasis) (A := fun i s => f i s y) (x := x) (A' := fun i => fx i x y)
        (fun i hi => (hder i (mem_range.1 hi) x y).1)
      have h2 : (fun s => ∑ i ∈ range d.numBasis, f i s y) = fun _ => 1 := funext fun s => hsum s y
      rw [h2] at h1
      exact h1.unique (hasDerivAt_const x 1)
    · have h1 := HasDerivAt.fun_sum (u := range d.numBasis) (A := fun i s => f i x s) (x := y) (A' := fun i => fy i x y)
        (fun i hi => (hder i (mem_range.1 hi) x y).2)
      have h2 : (fun s => ∑ i ∈ range d.numBasis, f i x s) = fun _ => 1 := funext fun s => hsum x s
      rw [h2] at h1
      exact h1.unique (hasDerivAt_const y 1)

example : ∃ d, triCreate ℝ 4 = .ok d ∧ d.numBasis = 15 := by
  obtain ⟨d, hd, -, -, -, -, hn, -⟩ := C32_layout (K := ℝ) 4 (by norm_num)
  exact ⟨d, hd, by rw [hn]⟩

end PolyDiM
