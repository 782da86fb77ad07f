import Verif.Lemmas.FemHexa
import Verif.Spec.Cube
import Verif.Props.FemQuad
import Verif.Props.FemTet
import Verif.Spec.TetMesh

/-!
# C45: the hexahedral reference element

About `hexCreate`, `hexValue`, `hexDerivative` of `Verif/Model/FemHexa.lean`; the vocabulary is in `Verif/Spec/Cube.lean`.
-/

namespace PolyDiM
open Finset Spec

theorem hexPos_eq {K : Type} [Field K] [CharZero K] (k : Nat) (t : HexType) (h : t.1 < k + 2 ∧ t.2.1 < k + 2 ∧ t.2.2 < k + 2) :
    hexPos K k t = (latticeCoord K (k + 1) t.1, latticeCoord K (k + 1) t.2.1, latticeCoord K (k + 1) t.2.2) := by
  unfold hexPos
  rw [equi_getD _ _ h.1, equi_getD _ _ h.2.1, equi_getD _ _ h.2.2]

theorem hexPos_get {K : Type} [Field K] [CharZero K] (k i : Nat) (t : HexType) (h : (hexTypes k)[i]? = some t) :
    (hexRef K k).positions[i]? = some (latticeCoord K (k + 1) t.1, latticeCoord K (k + 1) t.2.1, latticeCoord K (k + 1) t.2.2) := by
  show ((hexTypes k).map (hexPos K k))[i]? = _
  rw [List.getElem?_map, h, Option.map_some, hexPos_eq k t ((mem_hexTypes k t).1 (List.mem_of_getElem? h))]

theorem latticeCoord_inner {K : Type} [Field K] (k j : Nat) : latticeCoord K k (j + 2) = ((j + 1 : Nat) : K) / (k : K) := by
  simp [latticeCoord]

theorem latticeCoord_zero {K : Type} [Field K] (k : Nat) : latticeCoord K k 0 = 0 := by simp [latticeCoord]

theorem latticeCoord_one {K : Type} [Field K] (k : Nat) : latticeCoord K k 1 = 1 := by simp [latticeCoord]

/-- **C45, layout.** For every order `k ≥ 1` the types run over all triples of 1D DOFs exactly once, positions are the tensor lattice
points. First come the eight vertices, then the DOFs of the twelve edges, each run from its first to its last vertex, then those of the six
faces, each by rows in the frame of one of its corners, then the interior. -/
theorem C45_layout {K : Type} [Field K] [CharZero K] (k : Nat) (hk : 1 ≤ k) :
    ∃ d, hexCreate K k = .ok d ∧ d.order = k ∧ d.num0D = 1 ∧ d.num1D = k - 1 ∧ d.num2D = (k - 1) * (k - 1) ∧
      d.num3D = (k - 1) * (k - 1) * (k - 1) ∧ d.numBasis = (k + 1) * (k + 1) * (k + 1) ∧ d.types.length = d.numBasis ∧
      d.positions.length = d.numBasis ∧ d.types.Nodup ∧ (∀ a b c : Nat, (a, b, c) ∈ d.types ↔ a ≤ k ∧ b ≤ k ∧ c ≤ k) ∧
      (∀ i a b c : Nat, d.types[i]? = some (a, b, c) → d.positions[i]? = some (latticeCoord K k a, latticeCoord K k b, latticeCoord K k c)) ∧
      (∀ v : Nat, v < 8 → d.positions[v]? = some (cubeVertex K v)) ∧
      (∀ e a b j : Nat, cubeEdges[e]? = some (a, b) → j < k - 1 →
        d.positions[8 + e * (k - 1) + j]? = some (segPoint3 (cubeVertex K a) (cubeVertex K b) (((j + 1 : Nat) : K) / (k : K)))) ∧
      (∀ f o a b i j : Nat, cubeFaces[f]? = some (o, a, b) → i < k - 1 → j < k - 1 →
        d.positions[8 + 12 * (k - 1) + f * ((k - 1) * (k - 1)) + (i * (k - 1) + j)]? =
          some (framePoint (cubeVertex K o) (cubeVertex K a) (cubeVertex K b) (((i + 1 : Nat) : K) / (k : K)) (((j + 1 : Nat) : K) / (k : K)))) ∧
      ∀ i a b c : Nat, 8 + 12 * (k - 1) + 6 * ((k - 1) * (k - 1)) ≤ i → d.types[i]? = some (a, b, c) → 2 ≤ a ∧ 2 ≤ b ∧ 2 ≤ c := by
  obtain ⟨k, rfl⟩ : ∃ m, k = m + 1 := ⟨k - 1, by omega⟩
  refine ⟨_, hexCreate_ok k, rfl, rfl, rfl, rfl, rfl, rfl, hexTypes_length k, ?_, hexTypes_nodup k, ?_, ?_, ?_, ?_, ?_, ?_⟩
  · show ((hexTypes k).map _).length = _
    rw [List.length_map, hexTypes_length]
    rfl
  · intro a b c
    show (a, b, c) ∈ hexTypes k ↔ _
    rw [mem_hexTypes]
    simp only
    omega
  · intro i a b c h
    exact hexPos_get k i _ h
  · intro v hv
    have : (hexTypes k)[v]? = some (cubeBits v) := by
      rw [hexTypes_vertex k v hv]
      interval_cases v <;> rfl
    rw [hexPos_get k v _ this]
    congr 1
    interval_cases v <;> simp [cubeVertex, cubeBits, latticeCoord_zero, latticeCoord_one]
  · intro e a b j he hj
    simp only [Nat.add_sub_cancel] at hj ⊢
    have h12 : e < 12 := (List.getElem?_eq_some_iff.1 he).1
    have hf : ∃ f, hexEdgeFns[e]? = some f ∧ ∀ j, (latticeCoord K (k + 1) (f (j + 2)).1, latticeCoord K (k + 1) (f (j + 2)).2.1,
        latticeCoord K (k + 1) (f (j + 2)).2.2) = segPoint3 (cubeVertex K a) (cubeVertex K b) (((j + 1 : Nat) : K) / ((k + 1 : Nat) : K)) := by
      interval_cases e <;> (
        simp only [cubeEdges, List.getElem?_cons_zero, List.getElem?_cons_succ, Option.some.injEq, Prod.mk.injEq] at he
        obtain ⟨rfl, rfl⟩ := he
        refine ⟨_, rfl, fun j => ?_⟩
        simp [segPoint3, cubeVertex, cubeBits, latticeCoord_zero, latticeCoord_one, latticeCoord_inner])
    obtain ⟨f, h1, h2⟩ := hf
    rw [hexPos_get k _ _ (hexTypes_edge k e j f h1 hj), h2]
  · intro f o a b i j hf hi hj
    simp only [Nat.add_sub_cancel] at hi hj ⊢
    have h6 : f < 6 := (List.getElem?_eq_some_iff.1 hf).1
    have hg : ∃ g, hexFaceFns[f]? = some g ∧ ∀ i j, (latticeCoord K (k + 1) (g (i + 2) (j + 2)).1, latticeCoord K (k + 1) (g (i + 2) (j + 2)).2.1,
        latticeCoord K (k + 1) (g (i + 2) (j + 2)).2.2) = framePoint (cubeVertex K o) (cubeVertex K a) (cubeVertex K b)
          (((i + 1 : Nat) : K) / ((k + 1 : Nat) : K)) (((j + 1 : Nat) : K) / ((k + 1 : Nat) : K)) := by
      interval_cases f <;> (
        simp only [cubeFaces, List.getElem?_cons_zero, List.getElem?_cons_succ, Option.some.injEq, Prod.mk.injEq] at hf
        obtain ⟨rfl, rfl, rfl⟩ := hf
        refine ⟨_, rfl, fun i j => ?_⟩
        simp [framePoint, cubeVertex, cubeBits, latticeCoord_zero, latticeCoord_one, latticeCoord_inner])
    obtain ⟨g, h1, h2⟩ := hg
    rw [hexPos_get k _ _ (hexTypes_face k f i j g h1 hi hj), h2]
  · intro i a b c hi h
    exact hexTypes_inner k i _ hi h

set_option maxRecDepth 8000 in
example : ∃ d, hexCreate ℚ 2 = .ok d ∧ d.types.length = 27 ∧ d.types[20]? = some (2, 2, 0) ∧ d.types[26]? = some (2, 2, 2) :=
  ⟨_, hexCreate_ok 1, by decide, by decide, by decide⟩

/-- **C45, order 0** is rejected. -/
theorem C45_order_zero (K : Type) [Field K] : hexCreate K 0 = .error .runtimeError := rfl

theorem hex_basis (k : Nat) : ∃ f f' : Nat → ℝ → ℝ,
    (∀ i a b c x, (hexTypes k)[i]? = some (a, b, c) → hexValue (hexRef ℝ k) x i = .ok (f a x.1 * f b x.2.1 * f c x.2.2) ∧
      hexDerivative (hexRef ℝ k) x i 0 = .ok (f' a x.1 * f b x.2.1 * f c x.2.2) ∧
      hexDerivative (hexRef ℝ k) x i 1 = .ok (f a x.1 * f' b x.2.1 * f c x.2.2) ∧
      hexDerivative (hexRef ℝ k) x i 2 = .ok (f a x.1 * f b x.2.1 * f' c x.2.2)) ∧
    (∀ a x, a < k + 2 → HasDerivAt (f a) (f' a x) x) ∧ (∀ x, ∑ i ∈ range (k + 2), f i x = 1) ∧
    (∀ i j, i < k + 2 → j < k + 2 → f i ((equi ℝ k).getD j 0) = if i = j then 1 else 0) ∧
    ∀ i x, i < k + 2 → fem1Value (bndRef ℝ k) x i = .ok (f i x) := by
  obtain ⟨f, f', hff, hs, hnod⟩ := bnd_basis k
  refine ⟨f, f', fun i a b c x h => ?_, fun a x ha => (hff a x ha).2.2, hs, hnod, fun i x hi => (hff i x hi).1⟩
  have hm := (mem_hexTypes k _).1 (List.mem_of_getElem? h)
  have hu : unchecked (hexRef ℝ k).types i = .ok (a, b, c) := (unchecked_ok_iff _ _ _).2 h
  have hb : (hexRef ℝ k).edge = bndRef ℝ k := rfl
  have ha := hff a x.1 hm.1
  have hb' := hff b x.2.1 hm.2.1
  have hc := hff c x.2.2 hm.2.2
  unfold hexValue hexDerivative
  simp only [hu, except_ok_bind, hb, ha.1, ha.2.1, hb'.1, hb'.2.1, hc.1, hc.2.1, if_true, one_ne_zero, if_false, and_self,
    OfNat.ofNat_ne_zero, OfNat.ofNat_ne_one]

theorem hexTypes_get_inj {k i j : Nat} {t : HexType} (h : (hexTypes k)[i]? = some t) (h' : (hexTypes k)[j]? = some t) : i = j := by
  obtain ⟨h1, h2⟩ := List.getElem?_eq_some_iff.1 h
  obtain ⟨h3, h4⟩ := List.getElem?_eq_some_iff.1 h'
  exact (List.Nodup.getElem_inj_iff (hexTypes_nodup k)).1 (h2.trans h4.symm)

/-- **C45, nodal.** Every basis function is `1` at its own DOF and `0` at the others. -/
theorem C45_nodal (k : Nat) (d : HexData ℝ) (hd : hexCreate ℝ k = .ok d) (i j : Nat) (p : ℝ × ℝ × ℝ) (hi : i < d.numBasis)
    (hp : d.positions[j]? = some p) : hexValue d p i = .ok (if i = j then 1 else 0) := by
  rcases k with _ | k
  · cases hd
  rw [hexCreate_ok] at hd
  injection hd with hd
  subst hd
  obtain ⟨f, f', hv, -, -, hnod, -⟩ := hex_basis k
  have hl := hexTypes_length k
  have hi : i < (k + 2) * (k + 2) * (k + 2) := hi
  have hp : ((hexTypes k).map (hexPos ℝ k))[j]? = some p := hp
  rw [List.getElem?_map, Option.map_eq_some_iff] at hp
  obtain ⟨⟨a', b', c'⟩, ht', rfl⟩ := hp
  obtain ⟨⟨a, b, c⟩, ht⟩ : ∃ t, (hexTypes k)[i]? = some t := ⟨_, List.getElem?_eq_getElem (by omega)⟩
  have hm := (mem_hexTypes k _).1 (List.mem_of_getElem? ht)
  have hm' := (mem_hexTypes k _).1 (List.mem_of_getElem? ht')
  rw [(hv i a b c _ ht).1]
  unfold hexPos
  rw [hnod a a' hm.1 hm'.1, hnod b b' hm.2.1 hm'.2.1, hnod c c' hm.2.2 hm'.2.2]
  congr 1
  have : i = j ↔ a = a' ∧ b = b' ∧ c = c' := by
    constructor
    · rintro rfl
      rw [ht] at ht'
      injection ht' with ht'
      simpa using ht'
    · rintro ⟨rfl, rfl, rfl⟩
      exact hexTypes_get_inj ht ht'
  rw [if_congr this rfl rfl]
  by_cases h1 : a = a' <;> by_cases h2 : b = b' <;> by_cases h3 : c = c' <;> simp [h1, h2, h3]

/-- **C45, derivatives.** The derivative routine returns the partial derivatives of the value routine. -/
theorem C45_derivatives (k : Nat) (d : HexData ℝ) (hd : hexCreate ℝ k = .ok d) (i : Nat) (hi : i < d.numBasis) :
    ∃ f : ℝ → ℝ → ℝ → ℝ, (∀ x y z, hexValue d (x, y, z) i = .ok (f x y z)) ∧
      ∀ x, ∃ g0 g1 g2, hexDerivative d x i 0 = .ok g0 ∧ hexDerivative d x i 1 = .ok g1 ∧ hexDerivative d x i 2 = .ok g2 ∧ HasPartials3At f x g0 g1 g2 := by
  rcases k with _ | k
  · cases hd
  rw [hexCreate_ok] at hd
  injection hd with hd
  subst hd
  obtain ⟨f, f', hv, hder, -, -⟩ := hex_basis k
  have hl := hexTypes_length k
  have hi : i < (k + 2) * (k + 2) * (k + 2) := hi
  obtain ⟨⟨a, b, c⟩, ht⟩ : ∃ t, (hexTypes k)[i]? = some t := ⟨_, List.getElem?_eq_getElem (by omega)⟩
  have hm := (mem_hexTypes k _).1 (List.mem_of_getElem? ht)
  refine ⟨fun x y z => f a x * f b y * f c z, fun x y z => (hv i a b c (x, y, z) ht).1, fun x => ⟨_, _, _, (hv i a b c x ht).2.1,
    (hv i a b c x ht).2.2.1, (hv i a b c x ht).2.2.2, ?_, ?_, ?_⟩⟩
  · exact ((hder a x.1 hm.1).mul_const _).mul_const _
  · exact ((hder b x.2.1 hm.2.1).const_mul _).mul_const _
  · exact (hder c x.2.2 hm.2.2).const_mul _

/-- **C45, partition of unity.** -/
theorem C45_partition_of_unity (k : Nat) (d : HexData ℝ) (hd : hexCreate ℝ k = .ok d) (x : ℝ × ℝ × ℝ) :
    ∃ f : Nat → ℝ, (∀ i, i < d.numBasis → hexValue d x i = .ok (f i)) ∧ ∑ i ∈ range d.numBasis, f i = 1 := by
  rcases k with _ | k
  · cases hd
  rw [hexCreate_ok] at hd
  injection hd with hd
  subst hd
  obtain ⟨f, f', hv, -, hs, -⟩ := hex_basis k
  have hl := hexTypes_length k
  refine ⟨fun i => f ((hexTypes k).getD i (0, 0, 0)).1 x.1 * f ((hexTypes k).getD i (0, 0, 0)).2.1 x.2.1 *
    f ((hexTypes k).getD i (0, 0, 0)).2.2 x.2.2, fun i hi => ?_, ?_⟩
  · have hi : i < (k + 2) * (k + 2) * (k + 2) := hi
    refine (hv i _ _ _ x ?_).1
    simp [hl, hi]
  · refine Eq.trans (list_map_sum_range (hexTypes k) (fun t => f t.1 x.1 * f t.2.1 x.2.1 * f t.2.2 x.2.2) _ _ hl ?_) ?_
    · intro i a ha
      simp [ha]
    · rw [← List.sum_toFinset _ (hexTypes_nodup k)]
      have : (hexTypes k).toFinset = range (k + 2) ×ˢ range (k + 2) ×ˢ range (k + 2) := by
        ext t
        rw [List.mem_toFinset, mem_hexTypes, mem_product, mem_product, mem_range, mem_range, mem_range]
      rw [this, sum_product]
      simp only [sum_product, ← mul_sum, hs, mul_one]

example : ∃ d, hexCreate ℝ 3 = .ok d ∧ 63 < d.numBasis ∧ d.positions[6]? = some (1, 1, 1) := by
  obtain ⟨d, hd, -, -, -, -, -, hn, -, -, -, -, -, hv, -⟩ := C45_layout (K := ℝ) 3 (by norm_num)
  refine ⟨d, hd, by rw [hn]; norm_num, ?_⟩
  rw [hv 6 (by norm_num)]
  norm_num [cubeVertex, cubeBits]

end PolyDiM
