import Verif.Lemmas.FemTriangleSecond

/-! Helper lemmas: the local space of the triangle. -/

namespace PolyDiM
open Spec

variable {K : Type} [Field K]

/-- The order written on edge `e`. -/
def edgeOrder (k : Nat) (b : Bool) (e : Nat) : List Nat :=
  if b then List.range' (3 + e * k) k else (List.range' (3 + e * k) k).reverse

theorem edgeOrder_perm (k : Nat) (b : Bool) (e : Nat) : (edgeOrder k b e).Perm (List.range' (3 + e * k) k) := by
  unfold edgeOrder
  cases b
  · exact List.reverse_perm _
  · exact List.Perm.refl _

theorem edgeOrder_length (k : Nat) (b : Bool) (e : Nat) : (edgeOrder k b e).length = k := by
  rw [(edgeOrder_perm k b e).length_eq, List.length_range']

theorem edgeOrder_get (k : Nat) (b : Bool) (e j : Nat) (hj : j < k) :
    (edgeOrder k b e)[j]? = some (if b then 3 + e * k + j else 3 + e * k + (k - 1 - j)) := by
  unfold edgeOrder
  cases b
  · rw [if_neg (by simp), if_neg (by simp), List.getElem?_reverse (by simpa using hj)]
    rw [List.length_range', List.getElem?_range' (by omega)]
    simp
  · simp [hj]

/-- The mesh order. -/
def meshOrder (k n2 : Nat) (b : Nat → Bool) : List Nat :=
  [0, 1, 2] ++ (edgeOrder k (b 0) 0 ++ edgeOrder k (b 1) 1 ++ edgeOrder k (b 2) 2) ++ List.range' (3 + 3 * k) n2

theorem meshOrder_perm (k n2 : Nat) (b : Nat → Bool) : (meshOrder k n2 b).Perm (List.range (3 + 3 * k + n2)) := by
  unfold meshOrder
  have h1 : ([0, 1, 2] ++ (edgeOrder k (b 0) 0 ++ edgeOrder k (b 1) 1 ++ edgeOrder k (b 2) 2) ++ List.range' (3 + 3 * k) n2).Perm
      ([0, 1, 2] ++ (List.range' (3 + 0 * k) k ++ List.range' (3 + 1 * k) k ++ List.range' (3 + 2 * k) k) ++ List.range' (3 + 3 * k) n2) :=
    List.Perm.append_right _ (List.Perm.append_left _ (((edgeOrder_perm k _ 0).append (edgeOrder_perm k _ 1)).append (edgeOrder_perm k _ 2)))
  refine h1.trans (List.Perm.of_eq ?_)
  have h0 : [0, 1, 2] = List.range' 0 3 := rfl
  have e1 := @List.range'_append_1 (3 + 0 * k) k k
  have e2 := @List.range'_append_1 (3 + 0 * k) (k + k) k
  have e3 := @List.range'_append_1 0 3 (k + k + k)
  have e4 := @List.range'_append_1 0 (3 + (k + k + k)) n2
  rw [show 3 + 0 * k + k = 3 + 1 * k by ring] at e1
  rw [show 3 + 0 * k + (k + k) = 3 + 2 * k by ring] at e2
  rw [show 0 + 3 = 3 + 0 * k by ring] at e3
  rw [show 0 + (3 + (k + k + k)) = 3 + 3 * k by ring] at e4
  rw [h0, e1, e2, e3, e4, List.range_eq_range']
  congr 1
  ring

theorem meshOrder_length (k n2 : Nat) (b : Nat → Bool) : (meshOrder k n2 b).length = 3 + 3 * k + n2 := by
  rw [(meshOrder_perm k n2 b).length_eq, List.length_range]

theorem meshOrder_vertex (k n2 : Nat) (b : Nat → Bool) (v : Nat) (hv : v < 3) : (meshOrder k n2 b)[v]? = some v := by
  unfold meshOrder
  rw [List.getElem?_append_left (by simp [edgeOrder_length]; omega), List.getElem?_append_left (by simpa using hv)]
  interval_cases v <;> rfl

theorem meshOrder_edge (k n2 : Nat) (b : Nat → Bool) (e j : Nat) (he : e < 3) (hj : j < k) :
    (meshOrder k n2 b)[3 + e * k + j]? = some (if b e then 3 + e * k + j else 3 + e * k + (k - 1 - j)) := by
  have hl := fun e => edgeOrder_length k (b e) e
  have hek : e * k ≤ 2 * k := Nat.mul_le_mul_right k (by omega)
  unfold meshOrder
  rw [List.getElem?_append_left (by simp [edgeOrder_length]; omega), List.getElem?_append_right (by simp; omega)]
  have hs : 3 + e * k + j - [0, 1, 2].length = e * k + j := by simp; omega
  rw [hs]
  interval_cases e
  · rw [List.getElem?_append_left (by simp [edgeOrder_length]; omega), List.getElem?_append_left (by rw [hl]; omega)]
    have := edgeOrder_get k (b 0) 0 j hj
    rw [show 0 * k + j = j by omega]
    exact this
  · rw [List.getElem?_append_left (by simp [edgeOrder_length]; omega), List.getElem?_append_right (by rw [hl]; omega), hl]
    rw [show 1 * k + j - k = j by omega]
    exact edgeOrder_get k (b 1) 1 j hj
  · rw [List.getElem?_append_right (by simp [edgeOrder_length]; omega)]
    rw [List.length_append, hl, hl, show 2 * k + j - (k + k) = j by omega]
    exact edgeOrder_get k (b 2) 2 j hj

theorem meshOrder_inner (k n2 : Nat) (b : Nat → Bool) (j : Nat) (hj : j < n2) :
    (meshOrder k n2 b)[3 + 3 * k + j]? = some (3 + 3 * k + j) := by
  unfold meshOrder
  rw [List.getElem?_append_right (by simp [edgeOrder_length]; omega)]
  simp only [List.length_append, edgeOrder_length, List.length_cons, List.length_nil]
  rw [show 3 + 3 * k + j - (0 + 1 + 1 + 1 + (k + k + k)) = j by omega]
  simp [hj]

theorem tri_counts (k : Nat) : 3 + 3 * k + ((triLattice (k + 1)).filter (cc (k + 1))).length = tri (k + 2) := by
  have := triTypes_length k
  unfold triTypes at this
  simp only [List.length_append, List.length_map, List.length_range, List.length_cons, List.length_nil] at this
  omega

/-- The number of interior DOFs. -/
def triN2 (k : Nat) : Nat := ((triLattice (k + 1)).filter (cc (k + 1))).length

theorem triSpace_ok (k : Nat) (dirs : List Bool) (hd : 3 ≤ dirs.length) (m : TriMap K) :
    triSpace (triRef K k) 3 dirs m = .ok ⟨triRef K k, m, meshOrder k (triN2 k) (fun e => dirs.getD e true)⟩ := by
  have hat : ∀ e, e < 3 → atIdx dirs e = .ok (dirs.getD e true) := by
    intro e he
    unfold atIdx
    rw [List.getElem?_eq_getElem (by omega)]
    simp [show e < dirs.length by omega]
  have he : ∀ e, e < 3 → triEdgeOrder (triRef K k) dirs e = .ok (edgeOrder k (dirs.getD e true) e) := by
    intro e h
    unfold triEdgeOrder
    rw [hat e h, except_ok_bind]
    rfl
  unfold triSpace triOrder
  rw [if_neg (by simp), he 0 (by omega), except_ok_bind, he 1 (by omega), except_ok_bind, he 2 (by omega), except_ok_bind]
  have hm : List.range' 0 (3 * (triRef K k).num0D) ++ (edgeOrder k (dirs.getD 0 true) 0 ++ edgeOrder k (dirs.getD 1 true) 1 ++
      edgeOrder k (dirs.getD 2 true) 2) ++ List.range' (triEdgeIndex (triRef K k) 3) (triRef K k).num2D =
      meshOrder k (triN2 k) (fun e => dirs.getD e true) := rfl
  rw [hm, padCols_ok]
  · rfl
  · rw [meshOrder_length]
    exact tri_counts k

/-- The inverse map inverts the map. -/
theorem triFInv_F {m : TriMap K} (h : m.i00 * m.b00 + m.i01 * m.b10 = 1 ∧ m.i00 * m.b01 + m.i01 * m.b11 = 0 ∧
    m.i10 * m.b00 + m.i11 * m.b10 = 0 ∧ m.i10 * m.b01 + m.i11 * m.b11 = 1) (p : K × K) : triFInv m (triF m p) = p := by
  obtain ⟨h1, h2, h3, h4⟩ := h
  unfold triFInv triF
  ext
  · show m.i00 * (m.b00 * p.1 + m.b01 * p.2 + m.o0 - m.o0) + m.i01 * (m.b10 * p.1 + m.b11 * p.2 + m.o1 - m.o1) = p.1
    linear_combination p.1 * h1 + p.2 * h2
  · show m.i10 * (m.b00 * p.1 + m.b01 * p.2 + m.o0 - m.o0) + m.i11 * (m.b10 * p.1 + m.b11 * p.2 + m.o1 - m.o1) = p.2
    linear_combination p.1 * h3 + p.2 * h4

/-- Values and derivatives in physical coordinates. -/
theorem tri_phys_deriv (d : TriData ℝ) (hd : d.order ≠ 0) (m : TriMap ℝ) (i : Nat) (t : TriType) (p : ℝ × ℝ) (ht : d.types[i]? = some t)
    (hp : d.positions[i]? = some p) :
    ∃ f gx gy : ℝ → ℝ → ℝ, (∀ x y, triValue d x y i = .ok (f x y)) ∧ (∀ x y, triDerivative d x y i 0 = .ok (gx x y)) ∧
      (∀ x y, triDerivative d x y i 1 = .ok (gy x y)) ∧
      HasPartials2 (fun X Y => f (triFInv m (X, Y)).1 (triFInv m (X, Y)).2)
        (fun X Y => m.i00 * gx (triFInv m (X, Y)).1 (triFInv m (X, Y)).2 + m.i10 * gy (triFInv m (X, Y)).1 (triFInv m (X, Y)).2)
        (fun X Y => m.i01 * gx (triFInv m (X, Y)).1 (triFInv m (X, Y)).2 + m.i11 * gy (triFInv m (X, Y)).1 (triFInv m (X, Y)).2) := by
  refine ⟨_, _, _, fun x y => triValue_terms d hd x y i t p ht hp, fun x y => triDerivative_terms d hd x y i 0 t p ht hp,
    fun x y => triDerivative_terms d hd x y i 1 t p ht hp, fun X Y => ?_⟩
  generalize affTerms (1 / (d.order : ℝ)) t p = A
  simp only [prod_getD, if_true, Nat.one_ne_zero, if_false]
  have hfac : ∀ (j : Nat) (a b : ℝ) (s : ℝ) (F : ℝ → ℝ × ℝ), (∀ s, (F s).1 = (F 0).1 + a * s ∧ (F s).2 = (F 0).2 + b * s) →
      HasDerivAt (fun s => (A.getD j ⟨0, 0, 0, 0⟩).al + (A.getD j ⟨0, 0, 0, 0⟩).gx * (F s).1 + (A.getD j ⟨0, 0, 0, 0⟩).gy * (F s).2)
        ((A.getD j ⟨0, 0, 0, 0⟩).gx * a + (A.getD j ⟨0, 0, 0, 0⟩).gy * b) s := by
    intro j a b s F hF
    have e : (fun s => (A.getD j ⟨0, 0, 0, 0⟩).al + (A.getD j ⟨0, 0, 0, 0⟩).gx * (F s).1 + (A.getD j ⟨0, 0, 0, 0⟩).gy * (F s).2) =
        fun s => ((A.getD j ⟨0, 0, 0, 0⟩).al + (A.getD j ⟨0, 0, 0, 0⟩).gx * (F 0).1 + (A.getD j ⟨0, 0, 0, 0⟩).gy * (F 0).2) +
          ((A.getD j ⟨0, 0, 0, 0⟩).gx * a + (A.getD j ⟨0, 0, 0, 0⟩).gy * b) * s := by
      funext s
      rw [(hF s).1, (hF s).2]
      ring
    rw [e]
    simpa using ((hasDerivAt_id s).const_mul ((A.getD j ⟨0, 0, 0, 0⟩).gx * a + (A.getD j ⟨0, 0, 0, 0⟩).gy * b)).const_add
      ((A.getD j ⟨0, 0, 0, 0⟩).al + (A.getD j ⟨0, 0, 0, 0⟩).gx * (F 0).1 + (A.getD j ⟨0, 0, 0, 0⟩).gy * (F 0).2)
  constructor
  · have h := HasDerivAt.fun_finsetProd (u := Finset.range A.length) (x := X)
      (f := fun j s => (A.getD j ⟨0, 0, 0, 0⟩).al + (A.getD j ⟨0, 0, 0, 0⟩).gx * (triFInv m (s, Y)).1 +
        (A.getD j ⟨0, 0, 0, 0⟩).gy * (triFInv m (s, Y)).2)
      (f' := fun j => (A.getD j ⟨0, 0, 0, 0⟩).gx * m.i00 + (A.getD j ⟨0, 0, 0, 0⟩).gy * m.i10)
      (fun j _ => hfac j m.i00 m.i10 X (fun s => triFInv m (s, Y)) (fun s => by constructor <;> simp [triFInv] <;> ring))
    refine (h.div_const _).congr_deriv ?_
    rw [mul_div_assoc', mul_div_assoc', ← add_div, Finset.mul_sum, Finset.mul_sum, ← Finset.sum_add_distrib]
    congr 1
    apply Finset.sum_congr rfl
    intro j _
    rw [smul_eq_mul]
    ring
  · have h := HasDerivAt.fun_finsetProd (u := Finset.range A.length) (x := Y)
      (f := fun j s => (A.getD j ⟨0, 0, 0, 0⟩).al + (A.getD j ⟨0, 0, 0, 0⟩).gx * (triFInv m (X, s)).1 +
        (A.getD j ⟨0, 0, 0, 0⟩).gy * (triFInv m (X, s)).2)
      (f' := fun j => (A.getD j ⟨0, 0, 0, 0⟩).gx * m.i01 + (A.getD j ⟨0, 0, 0, 0⟩).gy * m.i11)
      (fun j _ => hfac j m.i01 m.i11 Y (fun s => triFInv m (X, s)) (fun s => by constructor <;> simp [triFInv] <;> ring))
    refine (h.div_const _).congr_deriv ?_
    rw [mul_div_assoc', mul_div_assoc', ← add_div, Finset.mul_sum, Finset.mul_sum, ← Finset.sum_add_distrib]
    congr 1
    apply Finset.sum_congr rfl
    intro j _
    rw [smul_eq_mul]
    ring

/-- The Laplacian of a cubic composed with the inverse map. -/
theorem cubic_laplacian (P : Cubic) (m : TriMap ℝ) (X Y : ℝ) :
    HasLaplacian2 (fun X Y => P.eval (triFInv m (X, Y)).1 (triFInv m (X, Y)).2) X Y
      ((m.i00 * m.i00 + m.i01 * m.i01) * P.dx.dx.eval (triFInv m (X, Y)).1 (triFInv m (X, Y)).2 +
        (m.i00 * m.i10 + m.i01 * m.i11) * P.dx.dy.eval (triFInv m (X, Y)).1 (triFInv m (X, Y)).2 +
        (m.i10 * m.i00 + m.i11 * m.i01) * P.dy.dx.eval (triFInv m (X, Y)).1 (triFInv m (X, Y)).2 +
        (m.i10 * m.i10 + m.i11 * m.i11) * P.dy.dy.eval (triFInv m (X, Y)).1 (triFInv m (X, Y)).2) := by
  have hX : ∀ (Q : Cubic) X Y, HasDerivAt (fun s => Q.eval (triFInv m (s, Y)).1 (triFInv m (s, Y)).2)
      (m.i00 * Q.dx.eval (triFInv m (X, Y)).1 (triFInv m (X, Y)).2 + m.i10 * Q.dy.eval (triFInv m (X, Y)).1 (triFInv m (X, Y)).2) X := by
    intro Q X Y
    have := Q.line (triFInv m (0, Y)).1 (triFInv m (0, Y)).2 m.i00 m.i10 X
    have e : ∀ s, triFInv m (s, Y) = ((triFInv m (0, Y)).1 + m.i00 * s, (triFInv m (0, Y)).2 + m.i10 * s) := by
      intro s; simp [triFInv]; constructor <;> ring
    simp only [e X]
    refine this.congr_of_eventuallyEq (Filter.Eventually.of_forall fun s => ?_)
    simp only [e s]
  have hY : ∀ (Q : Cubic) X Y, HasDerivAt (fun s => Q.eval (triFInv m (X, s)).1 (triFInv m (X, s)).2)
      (m.i01 * Q.dx.eval (triFInv m (X, Y)).1 (triFInv m (X, Y)).2 + m.i11 * Q.dy.eval (triFInv m (X, Y)).1 (triFInv m (X, Y)).2) Y := by
    intro Q X Y
    have := Q.line (triFInv m (X, 0)).1 (triFInv m (X, 0)).2 m.i01 m.i11 Y
    have e : ∀ s, triFInv m (X, s) = ((triFInv m (X, 0)).1 + m.i01 * s, (triFInv m (X, 0)).2 + m.i11 * s) := by
      intro s; simp [triFInv]; constructor <;> ring
    simp only [e Y]
    refine this.congr_of_eventuallyEq (Filter.Eventually.of_forall fun s => ?_)
    simp only [e s]
  refine ⟨_, _, _, _, ⟨_, _, fun X Y => ⟨hX P X Y, hY P X Y⟩, ((hX P.dx X Y).const_mul m.i00).add ((hX P.dy X Y).const_mul m.i10),
    ((hY P.dx X Y).const_mul m.i00).add ((hY P.dy X Y).const_mul m.i10), ((hX P.dx X Y).const_mul m.i01).add ((hX P.dy X Y).const_mul m.i11),
    ((hY P.dx X Y).const_mul m.i01).add ((hY P.dy X Y).const_mul m.i11)⟩, ?_⟩
  ring

end PolyDiM
