import Verif.Model.FemTet
import Verif.Lemmas.FemQuad
import Verif.Lemmas.FemTriangleSpace

/-! Helper lemmas for the tetrahedral element: the layout. -/

namespace PolyDiM
open Finset

/-! ## Counting -/

theorem tetFaceLoop_succ (m : Nat) : tetFaceLoop (m + 2) = triLattice m := rfl

theorem mem_tetFaceLoop {n a b : Nat} : (a, b) ∈ tetFaceLoop n ↔ a + b + 2 ≤ n := by
  unfold tetFaceLoop
  simp only [List.mem_flatMap, List.mem_range, List.mem_map, Prod.mk.injEq]
  constructor
  · rintro ⟨a, ha, b, hb, rfl, rfl⟩; omega
  · intro h; exact ⟨a, by omega, b, by omega, rfl, rfl⟩

theorem tetFaceLoop_length (n : Nat) : (tetFaceLoop n).length = tri (n - 1) := by
  rcases n with _ | _ | n
  · rfl
  · rfl
  · rw [tetFaceLoop_succ, triLattice_length]
    rfl

theorem tetFaceLoop_nodup (n : Nat) : (tetFaceLoop n).Nodup := by
  rcases n with _ | _ | n
  · simp [tetFaceLoop]
  · simp [tetFaceLoop]
  · exact triLattice_nodup n

theorem sum_tri (m : Nat) : ((List.range m).map fun i => tri (m - i)).sum = tet m := by
  induction m with
  | zero => rfl
  | succ m ih =>
    rw [List.range_succ_eq_map, List.map_cons, List.sum_cons, List.map_map]
    have : (List.map ((fun i => tri (m + 1 - i)) ∘ Nat.succ) (List.range m)) = List.map (fun i => tri (m - i)) (List.range m) := by
      apply List.map_congr_left
      intro i _
      simp
    rw [this, ih, tet_succ, Nat.sub_zero]
    omega

/-- All quadruples with sum `k`. -/
def tetLat (k : Nat) : List TetType :=
  (List.range (k + 1)).flatMap fun b => (triLattice (k - b)).map fun ij => (k - b - ij.1 - ij.2, b, ij.1, ij.2)

theorem mem_tetLat {k : Nat} {t : TetType} : t ∈ tetLat k ↔ t.1 + t.2.1 + t.2.2.1 + t.2.2.2 = k := by
  obtain ⟨a, b, c, d⟩ := t
  unfold tetLat
  simp only [List.mem_flatMap, List.mem_range, List.mem_map, Prod.exists, mem_triLattice, Prod.mk.injEq]
  constructor
  · rintro ⟨b, hb, i, j, h, rfl, rfl, rfl, rfl⟩; omega
  · intro h; exact ⟨b, by omega, c, d, by omega, by omega, rfl, rfl, rfl⟩

theorem tetLat_length (k : Nat) : (tetLat k).length = tet (k + 1) := by
  unfold tetLat
  rw [List.length_flatMap, ← sum_tri]
  congr 1
  apply List.map_congr_left
  intro b hb
  rw [List.mem_range] at hb
  rw [List.length_map, triLattice_length]
  congr 1
  omega

theorem tetLat_nodup (k : Nat) : (tetLat k).Nodup := by
  unfold tetLat
  rw [List.nodup_flatMap]
  constructor
  · intro b _
    exact List.Nodup.map (fun x y h => by
      simp only [Prod.mk.injEq] at h
      exact Prod.ext h.2.2.1 h.2.2.2) (triLattice_nodup _)
  · refine List.Pairwise.imp ?_ List.nodup_range
    intro a b hab x hx hy
    simp only [List.mem_map] at hx hy
    obtain ⟨_, _, rfl⟩ := hx
    obtain ⟨_, _, h⟩ := hy
    simp at h
    exact hab h.2.1.symm

/-! ## The DOFs -/

/-- The position belonging to a type. -/
def tetPos (K : Type) [Field K] (k : Nat) (t : TetType) : Vec3 K := ((t.2.1 : K) / (k : K), (t.2.2.1 : K) / (k : K), (t.2.2.2 : K) / (k : K))

/-- The types of an edge, a face and of the interior. -/
def tetEdgeTypes (k : Nat) : List (List TetType) :=
  [(List.range k).map fun d => (k - d, d + 1, 0, 0), (List.range k).map fun d => (0, k - d, d + 1, 0),
   (List.range k).map fun d => (d + 1, 0, k - d, 0), (List.range k).map fun d => (k - d, 0, 0, d + 1),
   (List.range k).map fun d => (0, d + 1, 0, k - d), (List.range k).map fun d => (0, 0, d + 1, k - d)]

def tetFaceTypes (k : Nat) : List (List TetType) :=
  [(tetFaceLoop k).map fun d => (k - d.1 - d.2 - 1, d.1 + 1, d.2 + 1, 0), (tetFaceLoop k).map fun d => (k - d.1 - d.2 - 1, d.1 + 1, 0, d.2 + 1),
   (tetFaceLoop k).map fun d => (k - d.1 - d.2 - 1, 0, d.1 + 1, d.2 + 1), (tetFaceLoop k).map fun d => (0, d.1 + 1, d.2 + 1, k - d.1 - d.2 - 1)]

def tetInnerTypes (k : Nat) : List TetType :=
  (List.range (k - 2)).flatMap fun d3 => (List.range (k - 2 - d3)).flatMap fun d1 => (List.range (k - 2 - d1 - d3)).map fun d2 =>
    (k - d1 - d2 - d3 - 2, d1 + 1, d2 + 1, d3 + 1)

/-- All types of order `k + 1`, in order. -/
def tetTypes (k : Nat) : List TetType :=
  [(k + 1, 0, 0, 0), (0, k + 1, 0, 0), (0, 0, k + 1, 0), (0, 0, 0, k + 1)] ++ (tetEdgeTypes k).flatten ++ (tetFaceTypes k).flatten ++ tetInnerTypes k

theorem mem_tetInnerTypes {k : Nat} {t : TetType} : t ∈ tetInnerTypes k ↔
    t.1 + t.2.1 + t.2.2.1 + t.2.2.2 = k + 1 ∧ 0 < t.1 ∧ 0 < t.2.1 ∧ 0 < t.2.2.1 ∧ 0 < t.2.2.2 := by
  obtain ⟨a, b, c, d⟩ := t
  unfold tetInnerTypes
  simp only [List.mem_flatMap, List.mem_range, List.mem_map, Prod.mk.injEq]
  constructor
  · rintro ⟨d3, h3, d1, h1, d2, h2, rfl, rfl, rfl, rfl⟩
    refine ⟨?_, ?_, ?_, ?_, ?_⟩ <;> omega
  · rintro ⟨h, ha, hb, hc, hd⟩
    exact ⟨d - 1, by omega, b - 1, by omega, c - 1, by omega, by omega, by omega, by omega, by omega⟩

theorem mem_tetTypes (k : Nat) (t : TetType) : t ∈ tetTypes k ↔ t.1 + t.2.1 + t.2.2.1 + t.2.2.2 = k + 1 := by
  obtain ⟨a, b, c, d⟩ := t
  unfold tetTypes
  rw [List.mem_append, mem_tetInnerTypes]
  unfold tetEdgeTypes tetFaceTypes
  simp only [List.flatten_cons, List.flatten_nil, List.append_nil, List.mem_append, List.mem_cons, List.not_mem_nil, or_false, List.mem_map,
    List.mem_range, Prod.exists, mem_tetFaceLoop, Prod.mk.injEq]
  constructor
  · rintro (((h | h) | h) | h)
    · omega
    · rcases h with h | h | h | h | h | h <;> obtain ⟨d, hd, h1, h2, h3, h4⟩ := h <;> omega
    · rcases h with h | h | h | h <;> obtain ⟨d, e, hd, h1, h2, h3, h4⟩ := h <;> omega
    · omega
  · intro h
    by_cases ha : a = 0 <;> by_cases hb : b = 0 <;> by_cases hc : c = 0 <;> by_cases hd : d = 0
    · omega
    · exact Or.inl (Or.inl (Or.inl (by omega)))
    · exact Or.inl (Or.inl (Or.inl (by omega)))
    · exact Or.inl (Or.inl (Or.inr (by right; right; right; right; right; exact ⟨c - 1, by omega, by omega, by omega, by omega, by omega⟩)))
    · exact Or.inl (Or.inl (Or.inl (by omega)))
    · exact Or.inl (Or.inl (Or.inr (by right; right; right; right; left; exact ⟨b - 1, by omega, by omega, by omega, by omega, by omega⟩)))
    · exact Or.inl (Or.inl (Or.inr (by right; left; exact ⟨c - 1, by omega, by omega, by omega, by omega, by omega⟩)))
    · exact Or.inl (Or.inr (by right; right; right; exact ⟨b - 1, c - 1, by omega, by omega, by omega, by omega, by omega⟩))
    · exact Or.inl (Or.inl (Or.inl (by omega)))
    · exact Or.inl (Or.inl (Or.inr (by right; right; right; left; exact ⟨d - 1, by omega, by omega, by omega, by omega, by omega⟩)))
    · exact Or.inl (Or.inl (Or.inr (by right; right; left; exact ⟨a - 1, by omega, by omega, by omega, by omega, by omega⟩)))
    · exact Or.inl (Or.inr (by right; right; left; exact ⟨c - 1, d - 1, by omega, by omega, by omega, by omega, by omega⟩))
    · exact Or.inl (Or.inl (Or.inr (by left; exact ⟨b - 1, by omega, by omega, by omega, by omega, by omega⟩)))
    · exact Or.inl (Or.inr (by right; left; exact ⟨b - 1, d - 1, by omega, by omega, by omega, by omega, by omega⟩))
    · exact Or.inl (Or.inr (by left; exact ⟨b - 1, c - 1, by omega, by omega, by omega, by omega, by omega⟩))
    · exact Or.inr (by omega)

theorem tetInnerTypes_length (k : Nat) : (tetInnerTypes k).length = tet (k - 2) := by
  unfold tetInnerTypes
  rw [List.length_flatMap, ← sum_tri]
  congr 1
  apply List.map_congr_left
  intro d3 h3
  rw [List.mem_range] at h3
  have h := tetFaceLoop_length (k - 2 - d3 + 1)
  unfold tetFaceLoop at h
  rw [Nat.add_sub_cancel, List.length_flatMap] at h
  rw [List.length_flatMap, ← h]
  congr 1
  apply List.map_congr_left
  intro d1 h1
  rw [List.length_map, List.length_map, List.length_range, List.length_range]
  omega

theorem tetTypes_length' (k : Nat) : (tetTypes k).length = 4 * 1 + 6 * k + 4 * tri (k - 1) + tet (k - 2) := by
  unfold tetTypes
  simp only [List.length_append, tetInnerTypes_length]
  unfold tetEdgeTypes tetFaceTypes
  simp only [List.length_flatten, List.map_cons, List.map_nil, List.length_map, List.length_range, tetFaceLoop_length, List.sum_cons, List.sum_nil,
    List.length_cons, List.length_nil]
  omega

theorem tet_count (k : Nat) : 4 * 1 + 6 * k + 4 * tri (k - 1) + tet (k - 2) = tet (k + 2) := by
  rcases k with _ | _ | k
  · rfl
  · rfl
  · rw [show k + 1 + 1 - 1 = k + 1 by omega, show k + 1 + 1 - 2 = k by omega]
    have h1 := two_tri (k + 1)
    have h2 := six_tet k
    have h3 := six_tet (k + 1 + 1 + 2)
    suffices 6 * (4 * 1 + 6 * (k + 1 + 1) + 4 * tri (k + 1) + tet k) = 6 * tet (k + 1 + 1 + 2) by omega
    rw [h3, show 6 * (4 * 1 + 6 * (k + 1 + 1) + 4 * tri (k + 1) + tet k) = 24 + 36 * (k + 2) + 12 * (2 * tri (k + 1)) + 6 * tet k by ring, h1, h2]
    ring

theorem tetTypes_length (k : Nat) : (tetTypes k).length = tet (k + 2) := by rw [tetTypes_length', tet_count]

theorem tetTypes_nodup (k : Nat) : (tetTypes k).Nodup := by
  refine nodup_of_card _ (tetLat (k + 1)).toFinset (fun t => ?_) ?_
  · rw [mem_tetTypes, List.mem_toFinset, mem_tetLat]
  · rw [List.toFinset_card_of_nodup (tetLat_nodup _), tetLat_length, tetTypes_length]

variable {K : Type} [Field K] [CharZero K]

theorem tetDofs_eq (k : Nat) : tetDofs K (k + 1) k = (tetTypes k).map fun t => (t, tetPos K (k + 1) t) := by
  have hk : ((k + 1 : Nat) : K) ≠ 0 := Nat.cast_ne_zero.2 (by omega)
  have h1 : tetDofs K (k + 1) k = tetVertexDofs K (k + 1) ++ tetEdgeDofs K (k + 1) k ++ tetFaceDofs K (k + 1) k ++ tetInnerDofs K (k + 1) k := by
    unfold tetDofs
    rcases k with _ | _ | _ | k
    · simp [tetEdgeDofs, tetFaceDofs, tetFaceLoop, tetInnerDofs]
    · simp [tetFaceDofs, tetFaceLoop, tetInnerDofs]
    · simp [tetInnerDofs]
    · rw [if_pos (by omega), if_pos (by omega), if_pos (by omega)]
      simp only [List.append_assoc]
  rw [h1]
  unfold tetTypes
  simp only [List.map_append]
  congr 1
  · congr 1
    · congr 1
      · unfold tetVertexDofs tetPos
        simp
        have : (k : K) + 1 ≠ 0 := by exact_mod_cast hk
        exact (div_self this).symm
      · unfold tetEdgeDofs tetEdgeTypes
        simp only [List.flatten_cons, List.flatten_nil, List.append_nil, List.map_append, List.map_map, List.append_assoc]
        congr 1
        · apply List.map_congr_left; intro d hd; rw [List.mem_range] at hd
          simp only [Function.comp, tetPos, Nat.cast_zero, zero_div, Nat.add_sub_cancel]
        congr 1
        · apply List.map_congr_left; intro d hd; rw [List.mem_range] at hd
          simp only [Function.comp, tetPos, Nat.cast_zero, zero_div, show k + 1 - d - 1 = k - d by omega]
        congr 1
        · apply List.map_congr_left; intro d hd; rw [List.mem_range] at hd
          simp only [Function.comp, tetPos, Nat.cast_zero, zero_div, show k + 1 - d - 1 = k - d by omega]
        congr 1
        · apply List.map_congr_left; intro d hd; rw [List.mem_range] at hd
          simp only [Function.comp, tetPos, Nat.cast_zero, zero_div, show k + 1 - d - 1 = k - d by omega]
        congr 1
        · apply List.map_congr_left; intro d hd; rw [List.mem_range] at hd
          simp only [Function.comp, tetPos, Nat.cast_zero, zero_div, show k + 1 - d - 1 = k - d by omega]
        · apply List.map_congr_left; intro d hd; rw [List.mem_range] at hd
          simp only [Function.comp, tetPos, Nat.cast_zero, zero_div, show k + 1 - d - 1 = k - d by omega]
    · unfold tetFaceDofs tetFaceTypes
      simp only [List.flatten_cons, List.flatten_nil, List.append_nil, List.map_append, List.map_map, List.append_assoc]
      have e : ∀ a b, k + 1 - a - b - 2 = k - a - b - 1 := by omega
      congr 1
      · apply List.map_congr_left; intro d hd
        simp only [Function.comp, tetPos, Nat.cast_zero, zero_div, e]
      congr 1
      · apply List.map_congr_left; intro d hd
        simp only [Function.comp, tetPos, Nat.cast_zero, zero_div, e]
      congr 1
      · apply List.map_congr_left; intro d hd
        simp only [Function.comp, tetPos, Nat.cast_zero, zero_div, e]
      · apply List.map_congr_left; rintro ⟨a, b⟩ hd
        rw [mem_tetFaceLoop] at hd
        simp only [Function.comp, tetPos, e]
        congr 3
        rw [show k - a - b - 1 = (k + 1) - (a + 1) - (b + 1) by omega, Nat.cast_sub (by omega), Nat.cast_sub (by omega)]
        field_simp
  · unfold tetInnerDofs tetInnerTypes
    simp only [List.map_flatMap, List.map_map]
    have e : ∀ a b c, k + 1 - a - b - c - 3 = k - a - b - c - 2 := by omega
    simp only [Function.comp_def, tetPos, e]

/-- The data of order `k + 1`. -/
def tetRef (K : Type) [Field K] (k : Nat) : TetData K :=
  ⟨k + 1, 1, k, tri (k - 1), tet (k - 2), tet (k + 2), (tetTypes k).map (tetPos K (k + 1)), tetTypes k, triRef K k⟩

theorem tetCreate_ok (k : Nat) : tetCreate K (k + 1) = .ok (tetRef K k) := by
  have hn2 : (if k + 1 > 2 then (k + 1 - 2) * (k + 1 - 1) / 2 else 0) = tri (k - 1) := by
    rcases k with _ | _ | k
    · rfl
    · rfl
    · rw [if_pos (by omega)]
      exact tri_div' (k + 1)
  have hn3 : (if k + 1 > 3 then (k + 1 - 3) * (k + 1 - 2) * (k + 1 - 1) / 6 else 0) = tet (k - 2) := by
    rcases k with _ | _ | _ | k
    · rfl
    · rfl
    · rfl
    · rw [if_pos (by omega)]
      exact tet_div k
  unfold tetCreate
  rw [if_neg (by omega)]
  simp only [hn2, hn3]
  simp only [Nat.add_sub_cancel]
  have hfull : fullCols (4 * 1 + 6 * k + 4 * tri (k - 1) + tet (k - 2)) (tetDofs K (k + 1) k) = .ok (tetDofs K (k + 1) k) := by
    unfold fullCols
    rw [if_pos]
    rw [tetDofs_eq, List.length_map, tetTypes_length']
  rw [hfull, except_ok_bind, triCreate_ok, except_ok_bind, tetDofs_eq]
  simp only [List.map_map, tet_count]
  have h1 : (tetTypes k).map (Prod.snd ∘ fun t => (t, tetPos K (k + 1) t)) = (tetTypes k).map (tetPos K (k + 1)) := rfl
  have h2 : (tetTypes k).map (Prod.fst ∘ fun t => (t, tetPos K (k + 1) t)) = tetTypes k := by
    rw [show (Prod.fst ∘ fun t => (t, tetPos K (k + 1) t)) = id from rfl, List.map_id]
  rw [h1, h2]
  have ht : tetTable (tetRef K k) = .ok () := by
    unfold tetTable
    split
    · rfl
    · rw [show (tetRef K k).types = tetTypes k from rfl, mapM_unchecked (tetTypes k) (0, 0, 0, 0), except_ok_bind]
      intro i hi
      rw [tetTypes_length]
      exact List.mem_range.1 hi
  show (tetTable (tetRef K k) >>= fun _ => Except.ok (tetRef K k)) = _
  rw [ht, except_ok_bind]

/-! ## The blocks -/

theorem flatten_get {α : Type} (n : Nat) : ∀ (L : List (List α)), (∀ l ∈ L, l.length = n) → ∀ e j : Nat, j < n →
    L.flatten[e * n + j]? = (L[e]?).bind fun l => l[j]?
  | [], _, e, j, _ => by simp
  | l :: L, h, 0, j, hj => by
    rw [List.flatten_cons, Nat.zero_mul, Nat.zero_add, List.getElem?_append_left (by rw [h l (by simp)]; exact hj)]
    rfl
  | l :: L, h, e + 1, j, hj => by
    have hl := h l (by simp)
    rw [List.flatten_cons, List.getElem?_append_right (by rw [hl, Nat.add_one_mul]; omega), hl,
      show (e + 1) * n + j - n = e * n + j by rw [Nat.add_one_mul]; omega,
      flatten_get n L (fun l hl => h l (by simp [hl])) e j hj]
    rfl

theorem flatten_length_const {α : Type} (n : Nat) (L : List (List α)) (h : ∀ l ∈ L, l.length = n) : L.flatten.length = L.length * n := by
  induction L with
  | nil => simp
  | cons l L ih =>
    rw [List.flatten_cons, List.length_append, h l (by simp), ih fun l hl => h l (by simp [hl]), List.length_cons, Nat.add_one_mul]
    omega

theorem tetEdgeTypes_len (k : Nat) : ∀ l ∈ tetEdgeTypes k, l.length = k := by
  intro l hl
  simp only [tetEdgeTypes, List.mem_cons, List.not_mem_nil, or_false] at hl
  rcases hl with rfl | rfl | rfl | rfl | rfl | rfl <;> simp

theorem tetFaceTypes_len (k : Nat) : ∀ l ∈ tetFaceTypes k, l.length = tri (k - 1) := by
  intro l hl
  simp only [tetFaceTypes, List.mem_cons, List.not_mem_nil, or_false] at hl
  rcases hl with rfl | rfl | rfl | rfl <;> rw [List.length_map, tetFaceLoop_length]

theorem tetTypes_edge (k e j : Nat) (he : e < 6) (hj : j < k) : (tetTypes k)[4 + e * k + j]? = ((tetEdgeTypes k)[e]?).bind fun l => l[j]? := by
  have h1 : (tetEdgeTypes k).flatten.length = 6 * k := flatten_length_const k _ (tetEdgeTypes_len k)
  have h2 : e * k + j < 6 * k := mul_add_lt he hj
  unfold tetTypes
  rw [List.getElem?_append_left (by simp only [List.length_append, h1, List.length_cons, List.length_nil]; omega),
    List.getElem?_append_left (by simp only [List.length_append, h1, List.length_cons, List.length_nil]; omega),
    List.getElem?_append_right (by simp only [List.length_cons, List.length_nil]; omega),
    ← flatten_get k _ (tetEdgeTypes_len k) e j hj]
  congr 1
  simp only [List.length_cons, List.length_nil]
  omega

theorem tetTypes_face (k f j : Nat) (hf : f < 4) (hj : j < tri (k - 1)) :
    (tetTypes k)[4 + 6 * k + f * tri (k - 1) + j]? = ((tetFaceTypes k)[f]?).bind fun l => l[j]? := by
  have h1 : (tetEdgeTypes k).flatten.length = 6 * k := flatten_length_const k _ (tetEdgeTypes_len k)
  have h2 : (tetFaceTypes k).flatten.length = 4 * tri (k - 1) := flatten_length_const _ _ (tetFaceTypes_len k)
  have h3 : f * tri (k - 1) + j < 4 * tri (k - 1) := mul_add_lt hf hj
  unfold tetTypes
  rw [List.getElem?_append_left (by simp only [List.length_append, h1, h2, List.length_cons, List.length_nil]; omega),
    List.getElem?_append_right (by simp only [List.length_append, h1, List.length_cons, List.length_nil]; omega),
    ← flatten_get _ _ (tetFaceTypes_len k) f j hj]
  congr 1
  simp only [List.length_append, h1, List.length_cons, List.length_nil]
  omega

theorem tetTypes_inner (k j : Nat) : (tetTypes k)[4 + 6 * k + 4 * tri (k - 1) + j]? = (tetInnerTypes k)[j]? := by
  have h1 : (tetEdgeTypes k).flatten.length = 6 * k := flatten_length_const k _ (tetEdgeTypes_len k)
  have h2 : (tetFaceTypes k).flatten.length = 4 * tri (k - 1) := flatten_length_const _ _ (tetFaceTypes_len k)
  unfold tetTypes
  rw [List.getElem?_append_right (by simp only [List.length_append, h1, h2, List.length_cons, List.length_nil]; omega)]
  congr 1
  simp only [List.length_append, h1, h2, List.length_cons, List.length_nil]
  omega

end PolyDiM
