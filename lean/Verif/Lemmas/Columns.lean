import Verif.Model.FemQuad
import Verif.Lemmas.FemTriangleBasis
import Mathlib.Data.Finset.Prod
import Mathlib.Data.Finset.Card

/-! Helper lemmas: tables written column by column, mesh orders, lists that enumerate a finite set. -/

namespace PolyDiM

theorem foldl_setCols_length {α : Type} (ws : List (Nat × α)) (l : List α) : (ws.foldl (fun l w => l.set w.1 w.2) l).length = l.length := by
  induction ws generalizing l with
  | nil => rfl
  | cons w ws ih => rw [List.foldl_cons, ih, List.length_set]

theorem foldl_setCols_notin {α : Type} (ws : List (Nat × α)) (l : List α) (i : Nat) (h : ∀ w ∈ ws, w.1 ≠ i) :
    (ws.foldl (fun l w => l.set w.1 w.2) l)[i]? = l[i]? := by
  induction ws generalizing l with
  | nil => rfl
  | cons w ws ih =>
    rw [List.foldl_cons, ih _ fun v hv => h v (by simp [hv]), List.getElem?_set_ne (h w (by simp))]

theorem foldl_setCols_get {α : Type} (ws : List (Nat × α)) (l : List α) (i : Nat) (v : α) (hn : (ws.map Prod.fst).Nodup) (hm : (i, v) ∈ ws)
    (hi : i < l.length) : (ws.foldl (fun l w => l.set w.1 w.2) l)[i]? = some v := by
  induction ws generalizing l with
  | nil => simp at hm
  | cons w ws ih =>
    rw [List.map_cons, List.nodup_cons] at hn
    rw [List.foldl_cons]
    rcases List.mem_cons.1 hm with rfl | hm
    · rw [foldl_setCols_notin]
      · simp [hi]
      · intro u hu he
        exact hn.1 (List.mem_map.2 ⟨u, hu, he⟩)
    · exact ih _ hn.2 hm (by simpa using hi)

/-- Writing every column of `L` exactly once, in any order, produces `L`. -/
theorem writeCols_ok {α : Type} (z : α) (L : List α) (ws : List (Nat × α)) (h : ws.Perm (L.zipIdx.map Prod.swap)) :
    writeCols L.length z ws = .ok L := by
  have hmem : ∀ w, w ∈ ws ↔ L[w.1]? = some w.2 := by
    intro w
    rw [h.mem_iff]
    simp only [List.mem_map, Prod.exists]
    constructor
    · rintro ⟨a, b, h1, rfl⟩
      exact List.mem_zipIdx_iff_getElem?.1 h1
    · intro h1
      exact ⟨w.2, w.1, List.mem_zipIdx_iff_getElem?.2 h1, rfl⟩
  have hlt : ∀ w ∈ ws, w.1 < L.length := fun w hw => (List.getElem?_eq_some_iff.1 ((hmem w).1 hw)).1
  have hn : (ws.map Prod.fst).Nodup := by
    have hp := h.map Prod.fst
    rw [List.map_map] at hp
    have : (L.zipIdx.map (Prod.fst ∘ Prod.swap)) = List.range L.length := by
      rw [List.range_eq_range', ← List.zipIdx_map_snd 0 L]
      apply List.map_congr_left
      intro a _
      rfl
    rw [this] at hp
    exact hp.nodup_iff.2 List.nodup_range
  unfold writeCols
  rw [if_pos hlt]
  congr 1
  apply List.ext_getElem?
  intro i
  by_cases hi : i < L.length
  · rw [List.getElem?_eq_getElem hi, foldl_setCols_get ws _ i L[i] hn ((hmem _).2 (List.getElem?_eq_getElem hi)) (by simpa using hi)]
  · rw [List.getElem?_eq_none (by rw [foldl_setCols_length, List.length_replicate]; omega), List.getElem?_eq_none (by omega)]

/-- A list whose elements are those of a finite set with as many elements has no repetition. -/
theorem nodup_of_card {α : Type} [DecidableEq α] (l : List α) (s : Finset α) (h : ∀ a, a ∈ l ↔ a ∈ s) (hc : l.length = s.card) : l.Nodup := by
  have : l.toFinset = s := by ext a; rw [List.mem_toFinset, h]
  have h2 : (l : Multiset α).toFinset.card = Multiset.card (l : Multiset α) := by
    rw [show (l : Multiset α).toFinset = l.toFinset from rfl, this, Multiset.coe_card, hc]
  exact Multiset.coe_nodup.1 (Multiset.toFinset_card_eq_card_iff_nodup.1 h2)

/-! ## Mesh orders -/

/-- The order written on an edge whose DOFs start at `s`. -/
def runOrder (s k : Nat) (b : Bool) : List Nat := if b then List.range' s k else (List.range' s k).reverse

theorem runOrder_perm (s k : Nat) (b : Bool) : (runOrder s k b).Perm (List.range' s k) := by
  unfold runOrder
  cases b
  · exact List.reverse_perm _
  · exact List.Perm.refl _

theorem runOrder_length (s k : Nat) (b : Bool) : (runOrder s k b).length = k := by
  rw [(runOrder_perm s k b).length_eq, List.length_range']

theorem runOrder_get (s k : Nat) (b : Bool) (j : Nat) (hj : j < k) :
    (runOrder s k b)[j]? = some (if b then s + j else s + (k - 1 - j)) := by
  unfold runOrder
  cases b
  · rw [if_neg (by simp), if_neg (by simp), List.getElem?_reverse (by simpa using hj)]
    rw [List.length_range', List.getElem?_range' (by omega)]
    simp
  · simp [hj]

/-- The orders of consecutive edges. -/
def runsOrder (s k : Nat) : List Bool → List Nat
  | [] => []
  | b :: bs => runOrder s k b ++ runsOrder (s + k) k bs

theorem runsOrder_perm (s k : Nat) (bs : List Bool) : (runsOrder s k bs).Perm (List.range' s (bs.length * k)) := by
  induction bs generalizing s with
  | nil => simp [runsOrder]
  | cons b bs ih =>
    have := (runOrder_perm s k b).append (ih (s + k))
    rw [List.range'_append_1] at this
    refine this.trans (List.Perm.of_eq ?_)
    congr 1
    simp only [List.length_cons]
    ring

theorem runsOrder_length (s k : Nat) (bs : List Bool) : (runsOrder s k bs).length = bs.length * k := by
  rw [(runsOrder_perm s k bs).length_eq, List.length_range']

theorem runsOrder_get (s k : Nat) (bs : List Bool) (e j : Nat) (b : Bool) (he : bs[e]? = some b) (hj : j < k) :
    (runsOrder s k bs)[e * k + j]? = some (if b then s + e * k + j else s + e * k + (k - 1 - j)) := by
  induction bs generalizing s e with
  | nil => simp at he
  | cons b' bs ih =>
    cases e with
    | zero =>
      have hb : b' = b := by simpa using he
      subst hb
      unfold runsOrder
      rw [List.getElem?_append_left (by rw [runOrder_length]; omega)]
      simp only [Nat.zero_mul, Nat.zero_add, Nat.add_zero]
      exact runOrder_get s k b' j hj
    | succ e =>
      unfold runsOrder
      have h1 : k ≤ (e + 1) * k + j := by
        rw [Nat.add_mul]; omega
      rw [List.getElem?_append_right (by rw [runOrder_length]; exact h1), runOrder_length]
      have h2 : (e + 1) * k + j - k = e * k + j := by rw [Nat.add_mul]; omega
      rw [h2, ih (s + k) e (by simpa using he)]
      congr 1
      rw [show s + k + e * k = s + (e + 1) * k by ring]

/-- Vertices, edges, then the other DOFs. -/
def meshRuns (nv k : Nat) (bs : List Bool) (rest : Nat) : List Nat :=
  List.range' 0 nv ++ runsOrder nv k bs ++ List.range' (nv + bs.length * k) rest

theorem meshRuns_perm (nv k : Nat) (bs : List Bool) (rest : Nat) :
    (meshRuns nv k bs rest).Perm (List.range (nv + bs.length * k + rest)) := by
  unfold meshRuns
  have h := ((List.Perm.refl (List.range' 0 nv)).append (runsOrder_perm nv k bs)).append (List.Perm.refl (List.range' (nv + bs.length * k) rest))
  refine h.trans (List.Perm.of_eq ?_)
  have e1 := @List.range'_append_1 0 nv (bs.length * k)
  have e2 := @List.range'_append_1 0 (nv + bs.length * k) rest
  rw [Nat.zero_add] at e1 e2
  rw [e1, e2, List.range_eq_range']

theorem meshRuns_length (nv k : Nat) (bs : List Bool) (rest : Nat) : (meshRuns nv k bs rest).length = nv + bs.length * k + rest := by
  rw [(meshRuns_perm nv k bs rest).length_eq, List.length_range]

theorem meshRuns_vertex (nv k : Nat) (bs : List Bool) (rest v : Nat) (hv : v < nv) : (meshRuns nv k bs rest)[v]? = some v := by
  unfold meshRuns
  rw [List.getElem?_append_left (by simp; omega), List.getElem?_append_left (by simpa using hv), List.getElem?_range' hv]
  simp

theorem mul_add_lt {e j n k : Nat} (he : e < n) (hj : j < k) : e * k + j < n * k := by
  have : (e + 1) * k ≤ n * k := Nat.mul_le_mul_right k (by omega)
  rw [Nat.add_mul] at this
  omega

theorem meshRuns_edge (nv k : Nat) (bs : List Bool) (rest e j : Nat) (b : Bool) (he : bs[e]? = some b) (hj : j < k) :
    (meshRuns nv k bs rest)[nv + e * k + j]? = some (if b then nv + e * k + j else nv + e * k + (k - 1 - j)) := by
  have he' := (List.getElem?_eq_some_iff.1 he).1
  have := mul_add_lt he' hj
  unfold meshRuns
  rw [List.getElem?_append_left (by simp [runsOrder_length]; omega), List.getElem?_append_right (by simp; omega), List.length_range',
    show nv + e * k + j - nv = e * k + j by omega]
  exact runsOrder_get nv k bs e j b he hj

theorem meshRuns_inner (nv k : Nat) (bs : List Bool) (rest j : Nat) (hj : j < rest) :
    (meshRuns nv k bs rest)[nv + bs.length * k + j]? = some (nv + bs.length * k + j) := by
  unfold meshRuns
  rw [List.getElem?_append_right (by simp [runsOrder_length]), List.length_append, List.length_range', runsOrder_length,
    show nv + bs.length * k + j - (nv + bs.length * k) = j by omega, List.getElem?_range' hj]
  simp

/-- The order is its own inverse. -/
theorem meshRuns_invol (nv k : Nat) (bs : List Bool) (rest c i : Nat) (h : (meshRuns nv k bs rest)[c]? = some i) :
    (meshRuns nv k bs rest)[i]? = some c := by
  have hc := (List.getElem?_eq_some_iff.1 h).1
  rw [meshRuns_length] at hc
  by_cases h1 : c < nv
  · rw [meshRuns_vertex _ _ _ _ _ h1] at h
    injection h with h
    subst h
    exact meshRuns_vertex _ _ _ _ _ h1
  · by_cases h2 : c < nv + bs.length * k
    · have hk : 0 < k := by
        rcases Nat.eq_zero_or_pos k with h0 | h0
        · subst h0; omega
        · exact h0
      obtain ⟨e, j, hj, he, rfl⟩ : ∃ e j, j < k ∧ e < bs.length ∧ c = nv + e * k + j := by
        refine ⟨(c - nv) / k, (c - nv) % k, Nat.mod_lt _ hk, (Nat.div_lt_iff_lt_mul hk).2 (by omega), ?_⟩
        have := Nat.div_add_mod (c - nv) k
        rw [Nat.mul_comm] at this
        omega
      have hb := List.getElem?_eq_getElem he
      rw [meshRuns_edge _ _ _ _ _ _ _ hb hj] at h
      injection h with h
      subst h
      cases hbe : bs[e]
      · rw [hbe] at hb
        rw [if_neg (by simp), meshRuns_edge _ _ _ _ _ _ _ hb (by omega), if_neg (by simp)]
        congr 1
        omega
      · rw [hbe] at hb
        rw [if_pos rfl, meshRuns_edge _ _ _ _ _ _ _ hb hj, if_pos rfl]
    · obtain ⟨j, rfl⟩ := Nat.exists_eq_add_of_le (Nat.le_of_not_lt h2)
      rw [meshRuns_inner _ _ _ _ _ (by omega)] at h
      injection h with h
      subst h
      exact meshRuns_inner _ _ _ _ _ (by omega)

/-- Scattering with an injective order. -/
theorem scatterCol_eq {α : Type} (order : List Nat) (vals : Nat → α) (i c : Nat) (hn : order.Nodup) (h : order[i]? = some c) :
    scatterCol order vals c = some (vals i) := by
  have hi := (List.getElem?_eq_some_iff.1 h).1
  have key : ∀ m, m ≤ order.length → (List.range m).foldl (fun acc d => if order[d]? = some c then some (vals d) else acc) none =
      if i < m then some (vals i) else none := by
    intro m
    induction m with
    | zero => intro _; simp
    | succ m ih =>
      intro hm
      rw [List.range_succ, List.foldl_append, ih (by omega)]
      simp only [List.foldl_cons, List.foldl_nil]
      by_cases hc : order[m]? = some c
      · have : m = i := by
          obtain ⟨h1, h2⟩ := List.getElem?_eq_some_iff.1 hc
          obtain ⟨h3, h4⟩ := List.getElem?_eq_some_iff.1 h
          exact (List.Nodup.getElem_inj_iff hn).1 (h2.trans h4.symm)
        subst this
        rw [if_pos hc, if_pos (by omega)]
      · have : m ≠ i := by
          rintro rfl
          exact hc h
        rw [if_neg hc]
        by_cases h2 : i < m
        · rw [if_pos h2, if_pos (by omega)]
        · rw [if_neg h2, if_neg (by omega)]
  unfold scatterCol
  rw [key _ le_rfl, if_pos hi]

end PolyDiM
