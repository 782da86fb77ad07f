import Verif.Spec.ZfemFan
import Verif.Props.Zfem
import Verif.Lemmas.FemQuad

/-! Helper lemmas: the triangles of a ZFEM element and their DOFs. -/

namespace PolyDiM

open Spec

variable {K : Type} [Field K] [CharZero K]

theorem zfemRef_ok (quad : Nat → Rule (K × K) K) (k : Nat) (hk : 1 ≤ k) (ref : ZfemRef K) (h : zfemRef quad k = .ok ref) :
    triCreate K k = .ok ref.fem ∧ ref.order = k ∧ ref.dofs1D = k - 1 ∧ ref.dofs2D = (k - 1) * (k - 2) / 2 ∧ ref.fem.order = k ∧ ref.fem.num1D = k - 1 ∧
      ref.fem.num2D = (k - 1) * (k - 2) / 2 ∧ ref.fem.numBasis = (k + 1) * (k + 2) / 2 ∧ ref.quad = quad (2 * k) ∧ ref.mono = compute mono2 k := by
  obtain ⟨d, hd, h1, -, h2, h3, h4, -⟩ := C32_layout (K := K) k hk
  unfold zfemRef at h
  rw [hd, except_ok_bind] at h
  injection h with h
  subst h
  exact ⟨hd, rfl, rfl, rfl, h1, h2, h3, h4, rfl, rfl⟩

theorem fan_triangles (k : Nat) (hk : 1 ≤ k) (quad : Nat → Rule (K × K) K) (ref : ZfemRef K) (href : zfemRef quad k = .ok ref) {poly : ZfemPolygon K} {c : K × K}
    {V : Nat → K × K} (hF : IsFan poly c V) :
    ∃ tris, zfemTriangles ref poly = .ok tris ∧ tris.length = poly.num ∧ ∀ t < poly.num, ∃ m s, poly.maps[t]? = some m ∧
      poly.dirs[t]? = some (poly.dirs.getD t true) ∧ tris[t]? = some s ∧ triSpace ref.fem 3 [true, poly.dirs.getD t true, false] m = .ok s := by
  obtain ⟨hd, -⟩ := zfemRef_ok quad k hk ref href
  have h1 : ∀ t < poly.num, ∃ m s, poly.maps[t]? = some m ∧ poly.dirs[t]? = some (poly.dirs.getD t true) ∧
      triSpace ref.fem 3 [true, poly.dirs.getD t true, false] m = .ok s := by
    intro t ht
    obtain ⟨m, hm⟩ : ∃ m, poly.maps[t]? = some m := ⟨_, List.getElem?_eq_getElem (by rw [hF.maps]; exact ht)⟩
    obtain ⟨⟨s, hs, -⟩, -⟩ := C37_permutation k hk ref.fem hd [true, poly.dirs.getD t true, false] rfl m
    refine ⟨m, s, hm, ?_, hs⟩
    have : t < poly.dirs.length := by rw [hF.dirs]; exact ht
    simp [List.getD, this]
  have : Nonempty (TriMap K) := ⟨⟨0, 0, 0, 0, 0, 0, 0, 0, 0, 0⟩⟩
  have : Nonempty (TriSpace K) := ⟨⟨ref.fem, ⟨0, 0, 0, 0, 0, 0, 0, 0, 0, 0⟩, []⟩⟩
  choose! m s h1 h2 h3 using h1
  refine ⟨(List.range poly.num).map s, ?_, by simp, fun t ht => ⟨m t, s t, h1 t ht, h2 t ht, by simp [ht], h3 t ht⟩⟩
  unfold zfemTriangles
  refine mapM_ok _ _ _ fun t ht => ?_
  have ht := List.mem_range.1 ht
  rw [(unchecked_ok_iff _ _ _).2 (h1 t ht), except_ok_bind, (unchecked_ok_iff _ _ _).2 (h2 t ht), except_ok_bind, h3 t ht]

/-- The types of the inner DOFs of a triangle. -/
def innerType (d : TriData K) (k j : Nat) : Nat × Nat × Nat := d.types.getD (3 * k + j) (0, 0, 0)

theorem innerType_lists (k : Nat) (hk : 1 ≤ k) (d : TriData K) (hd : triCreate K k = .ok d) : ListsInner k ((k - 1) * (k - 2) / 2) (innerType d k) := by
  obtain ⟨d', hd', -, -, -, -, hnb, htl, hpl, hnd, hmem, hpos, -, -, -, -, hin⟩ := C32_layout (K := K) k hk
  rw [hd] at hd'
  injection hd' with hd'
  subst hd'
  have hcols := two_mul_half k hk
  have hlt : ∀ j, j < (k - 1) * (k - 2) / 2 → 3 * k + j < d.types.length := by
    intro j hj
    rw [htl, hnb, ← hcols]
    omega
  have hget : ∀ j, j < (k - 1) * (k - 2) / 2 → d.types[3 * k + j]? = some (innerType d k j) := by
    intro j hj
    unfold innerType
    have := hlt j hj
    simp [List.getD, this]
  refine ⟨fun j hj => hin _ _ _ _ (Nat.le_add_right _ _) (hget j hj), fun j hj => (hmem _ _ _).1 (List.mem_of_getElem? (hget j hj)), fun j hj l hl h => ?_⟩
  have h1 := hget j hj
  rw [h, ← hget l hl] at h1
  have := (List.getElem?_inj (hlt j hj) hnd).1 h1
  omega

theorem fan_dof (k : Nat) (hk : 1 ≤ k) (d : TriData K) (hd : triCreate K k = .ok d) {poly : ZfemPolygon K} {c : K × K} {V : Nat → K × K} (hF : IsFan poly c V)
    {t : Nat} (ht : t < poly.num) {m : TriMap K} (hm : poly.maps[t]? = some m) {s : TriSpace K} {dirs : Nat → Bool} (hs : triSpace d 3 [true, dirs t, false] m = .ok s)
    {cc : Nat} (hc : cc < (k + 1) * (k + 2) / 2) :
    triDof s cc = .ok (fanPoint poly.num k c V dirs (innerType d k) (fanNode poly.num (k - 1) t cc)) := by
  obtain ⟨hv0, hv1, hv2⟩ := hF.vertices t ht m hm
  have hcols := two_mul_half k hk
  have hv3 : triVertex m 3 = triVertex m 0 := rfl
  by_cases h0 : cc < 3
  · rw [C37_vertices k hk d hd _ rfl m s hs cc h0]
    interval_cases cc
    · rw [hv0]; rfl
    · rw [hv1]; rfl
    · rw [hv2]; rfl
  have hne : ∀ e j, e < 3 → j < k - 1 → cc = 3 + e * (k - 1) + j → ∀ dir, [true, dirs t, false][e]? = some dir →
      triDof s cc = .ok (segPoint (meshEdge m dir e).1 (meshEdge m dir e).2 (((j + 1 : Nat) : K) / (k : K))) := by
    intro e j he hj hcc dir hdir
    rw [hcc]
    exact C37_edge_points k hk d hd _ rfl m s hs e j dir hdir hj
  unfold fanNode
  rw [if_neg (by omega), if_neg (by omega), if_neg (by omega)]
  by_cases h1 : cc < 3 + (k - 1)
  · rw [if_pos h1, hne 0 (cc - 3) (by omega) (by omega) (by omega) true rfl]
    simp only [meshEdge, if_true, hv0, hv1, fanPoint]
  rw [if_neg h1]
  by_cases h2 : cc < 3 + 2 * (k - 1)
  · rw [if_pos h2, hne 1 (cc - (3 + (k - 1))) (by omega) (by omega) (by omega) (dirs t) rfl]
    simp only [meshEdge, hv1, hv2, fanPoint, polyEdge]
  rw [if_neg h2]
  by_cases h3 : cc < 3 + 3 * (k - 1)
  · rw [if_pos h3, hne 2 (cc - (3 + 2 * (k - 1))) (by omega) (by omega) (by omega) false rfl]
    simp only [meshEdge, hv2, hv3, hv0, fanPoint, Bool.false_eq_true, if_false]
  rw [if_neg h3]
  obtain ⟨k, rfl⟩ : ∃ m, k = m + 1 := ⟨k - 1, by omega⟩
  obtain ⟨d', hd', -, -, -, -, hnb, htl, hpl, hnd, hmem, hpos, -⟩ := C32_layout (K := K) (k + 1) hk
  rw [hd] at hd'
  injection hd' with hd'
  subst hd'
  have hlt : cc < d.types.length := by rw [htl, hnb]; exact hc
  have hty : d.types[cc]? = some (innerType d (k + 1) (cc - (3 + 3 * k))) := by
    unfold innerType
    rw [show 3 * (k + 1) + (cc - (3 + 3 * k)) = cc by omega]
    simp [List.getD, hlt]
  rw [Nat.add_sub_cancel]
  simp only [fanPoint]
  generalize innerType d (k + 1) (cc - (3 + 3 * k)) = ty at hty ⊢
  obtain ⟨a, b, e⟩ := ty
  have hp := hpos cc a b e hty
  have hsum := (hmem a b e).1 (List.mem_of_getElem? hty)
  have hord : s.order[cc]? = some cc ∧ s.ref = d ∧ s.map = m := by
    have hd2 := hd
    rw [triCreate_ok] at hd2
    injection hd2 with hd2
    change triRef K k = d at hd2
    subst hd2
    rw [triSpace_ok k _ (by simp) m] at hs
    injection hs with hs
    subst hs
    refine ⟨?_, rfl, rfl⟩
    have htc := tri_counts k
    have h5 : cc < 3 + 3 * k + triN2 k := by
      unfold triN2
      rw [htc]
      have : (triRef K k).numBasis = tri (k + 2) := rfl
      omega
    have := meshOrder_inner k (triN2 k) (fun e => [true, dirs t, false].getD e true) (cc - (3 + 3 * k)) (by omega)
    rwa [show 3 + 3 * k + (cc - (3 + 3 * k)) = cc by omega] at this
  unfold triDof
  rw [(unchecked_ok_iff _ _ _).2 hord.1, except_ok_bind, hord.2.1, (unchecked_ok_iff _ _ _).2 hp, except_ok_bind, hord.2.2]
  simp only [← hv0, ← hv1, ← hv2, triF, triVertex, refVertex]
  have hk0 : ((k + 1 : Nat) : K) ≠ 0 := Nat.cast_ne_zero.2 (by omega)
  have ha : (a : K) = ((k + 1 : Nat) : K) - b - e := by rw [← hsum]; push_cast; ring
  rw [ha]
  norm_num
  constructor <;> field_simp <;> ring

end PolyDiM
