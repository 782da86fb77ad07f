import Verif.Spec.TetMesh
import Verif.Lemmas.Columns

/-! Helper lemmas: the local space of the tetrahedron. -/

namespace PolyDiM
open Spec

/-! ## Lists -/

theorem perm_range_of_nodup (l : List Nat) (n : Nat) (hn : l.Nodup) (hlt : ∀ a ∈ l, a < n) (hlen : l.length = n) : l.Perm (List.range n) := by
  apply List.perm_of_nodup_nodup_toFinset_eq hn List.nodup_range
  apply Finset.eq_of_subset_of_card_le
  · intro a ha
    rw [List.mem_toFinset] at ha ⊢
    exact List.mem_range.2 (hlt a ha)
  · rw [List.toFinset_card_of_nodup hn, List.toFinset_card_of_nodup List.nodup_range, List.length_range, hlen]

theorem range_flatMap_range' (s k n : Nat) : ((List.range n).flatMap fun r => List.range' (s + k * r) k) = List.range' s (n * k) := by
  induction n with
  | zero => simp
  | succ n ih =>
    rw [List.range_succ, List.flatMap_append, ih, Nat.add_one_mul, ← List.range'_append_1, Nat.mul_comm]
    simp

/-- Writing a bijection. -/
theorem writeCols_bij (N : Nat) (W : List (Nat × Nat)) (hA : (W.map Prod.fst).Perm (List.range N)) (hB : (W.map Prod.snd).Perm (List.range N)) :
    ∃ L, writeCols N 0 W = .ok L ∧ L.Perm (List.range N) ∧ ∀ i v, (i, v) ∈ W → L[i]? = some v := by
  have hlt : ∀ w ∈ W, w.1 < N := fun w hw => List.mem_range.1 (hA.mem_iff.1 (List.mem_map_of_mem hw))
  have hn : (W.map Prod.fst).Nodup := hA.nodup_iff.2 List.nodup_range
  have hget : ∀ i v, (i, v) ∈ W → (W.foldl (fun l w => l.set w.1 w.2) (List.replicate N 0))[i]? = some v := by
    intro i v h
    exact foldl_setCols_get W _ i v hn h (by rw [List.length_replicate]; exact hlt _ h)
  have hlen : (W.foldl (fun l w => l.set w.1 w.2) (List.replicate N 0)).length = N := by
    rw [foldl_setCols_length, List.length_replicate]
  refine ⟨_, if_pos hlt, ?_, hget⟩
  generalize W.foldl (fun l w => l.set w.1 w.2) (List.replicate N 0) = L at hget hlen
  have h1 : L = (List.range N).map fun i => L.getD i 0 := by
    apply List.ext_getElem?
    intro i
    by_cases hi : i < N
    · simp [hi, hlen]
    · rw [List.getElem?_eq_none (by omega), List.getElem?_eq_none (by simp; omega)]
  have h2 : W.map Prod.snd = (W.map Prod.fst).map fun i => L.getD i 0 := by
    rw [List.map_map]
    apply List.map_congr_left
    intro w hw
    have := hget w.1 w.2 hw
    simp [this]
  rw [h1]
  exact ((hA.map _).symm.trans (List.Perm.of_eq h2.symm)).trans hB

theorem findPoint_eq {K : Type} [DecidableEq K] (pts : List (Vec3 K)) (hn : pts.Nodup) (i : Nat) (p : Vec3 K) (h : pts[i]? = some p) :
    findPoint pts p = [i] := by
  unfold findPoint
  have key : ∀ (l : List (Vec3 K)) (s i : Nat), l.Nodup → l[i]? = some p →
      ((l.zipIdx s).filter fun q => q.1 = p).map Prod.snd = [s + i] := by
    intro l
    induction l with
    | nil => intro s i _ h; simp at h
    | cons a l ih =>
      intro s i hn h
      rw [List.nodup_cons] at hn
      rw [List.zipIdx_cons]
      rcases i with _ | i
      · simp only [List.getElem?_cons_zero, Option.some.injEq] at h
        subst h
        rw [List.filter_cons_of_pos (by simp)]
        have : (l.zipIdx (s + 1)).filter (fun q => decide (q.1 = a)) = [] := by
          rw [List.filter_eq_nil_iff]
          rintro ⟨b, j⟩ hb
          have := List.fst_mem_of_mem_zipIdx hb
          simp only [decide_eq_true_eq]
          intro he
          subst he
          exact hn.1 this
        rw [this]
        simp
      · rw [List.getElem?_cons_succ] at h
        have hne : a ≠ p := by
          rintro rfl
          exact hn.1 (List.mem_of_getElem? h)
        rw [List.filter_cons_of_neg (by simpa using hne), ih (s + 1) i hn.2 h]
        congr 1
        omega
  have := key pts 0 i hn h
  rw [Nat.zero_add] at this
  exact this

/-! ## Tables -/

theorem mapAt_mem {α β : Type} [DecidableEq α] (m : List (α × β)) (a : α) (b : β) (h : mapAt m a = .ok b) : (a, b) ∈ m := by
  unfold mapAt at h
  split at h
  · rename_i p hp
    injection h with h
    subst h
    have h1 := List.mem_of_find?_eq_some hp
    have h2 := List.find?_some hp
    simp only [decide_eq_true_eq] at h2
    rw [← h2]
    exact h1
  · cases h

/-- The number of the reference edge that joins two vertices. -/
def edgeNo (a b : Nat) : Nat := ((tetEdges.find? fun p => p.1 = (a, b)).map fun p => p.2.1).getD 6

/-- Whether the reference edge starts at `a`. -/
def edgeFwd (a b : Nat) : Bool := ((tetEdges.find? fun p => p.1 = (a, b)).map fun p => p.2.2).getD false

theorem mapAt_edges {a b : Nat} (ha : a < 4) (hb : b < 4) (hab : a ≠ b) : mapAt tetEdges (a, b) = .ok (edgeNo a b, edgeFwd a b) := by
  interval_cases a <;> interval_cases b <;> first | rfl | exact absurd rfl hab

theorem edgeNo_lt {a b : Nat} (ha : a < 4) (hb : b < 4) (hab : a ≠ b) : edgeNo a b < 6 := by
  interval_cases a <;> interval_cases b <;> first | decide | exact absurd rfl hab

theorem edgeNo_comm {a b : Nat} (ha : a < 4) (hb : b < 4) (hab : a ≠ b) : edgeNo b a = edgeNo a b := by
  interval_cases a <;> interval_cases b <;> first | rfl | exact absurd rfl hab

theorem edge_ends {a b : Nat} (ha : a < 4) (hb : b < 4) (hab : a ≠ b) :
    tetEdgeEnds[edgeNo a b]? = some (if edgeFwd a b then (a, b) else (b, a)) := by
  interval_cases a <;> interval_cases b <;> first | rfl | exact absurd rfl hab

theorem edgeNo_inj {a b a' b' : Nat} (ha : a < 4) (hb : b < 4) (hab : a ≠ b) (ha' : a' < 4) (hb' : b' < 4) (hab' : a' ≠ b')
    (h : edgeNo a b = edgeNo a' b') : (a', b') = (a, b) ∨ (a', b') = (b, a) := by
  have h1 := edge_ends ha hb hab
  have h2 := edge_ends ha' hb' hab'
  rw [h, h2] at h1
  injection h1 with h1
  by_cases e1 : edgeFwd a b = true <;> by_cases e2 : edgeFwd a' b' = true
  · rw [if_pos e1, if_pos e2] at h1; exact Or.inl h1
  · rw [if_pos e1, if_neg e2] at h1; injection h1 with h1 h2; subst h1; subst h2; exact Or.inr rfl
  · rw [if_neg e1, if_pos e2] at h1; exact Or.inr h1
  · rw [if_neg e1, if_neg e2] at h1; injection h1 with h1 h2; subst h1; subst h2; exact Or.inl rfl

/-- The face with three given vertices. -/
def faceNo (a b c : Nat) : Nat := ((tetFacesByEdgeVertex.find? fun p => p.1 = (edgeNo a b, c)).map fun p => p.2).getD 4

theorem face_tables {a b c : Nat} (ha : a < 4) (hb : b < 4) (hc : c < 4) (hab : a ≠ b) (hbc : b ≠ c) (hac : a ≠ c) :
    mapAt tetFacesByEdgeVertex (edgeNo a b, c) = .ok (faceNo a b c) ∧
      (∃ i dir, mapAt tetFacesByEdges (edgeNo a b, edgeNo b c) = .ok ((faceNo a b c, i), dir)) ∧ faceNo a b c < 4 ∧
      3 - faceNo a b c ≠ a ∧ 3 - faceNo a b c ≠ b ∧ 3 - faceNo a b c ≠ c := by
  interval_cases a <;> interval_cases b <;> first
    | exact absurd rfl hab
    | (interval_cases c <;> first
        | exact absurd rfl hbc
        | exact absurd rfl hac
        | exact ⟨rfl, ⟨_, _, rfl⟩, by decide, by decide, by decide, by decide⟩)

/-! ## Edges -/

/-- What is stored for an edge. -/
def edgeRef (edges : List (Nat × Nat)) (e : Nat) : Nat × Bool := (edgeNo (edges.getD e (0, 0)).1 (edges.getD e (0, 0)).2, edgeFwd (edges.getD e (0, 0)).1 (edges.getD e (0, 0)).2)

theorem edges_getD {edges : List (Nat × Nat)} (h : TetEdgesOk edges) {e : Nat} (he : e < 6) :
    edges[e]? = some (edges.getD e (0, 0)) ∧ (edges.getD e (0, 0)).1 < 4 ∧ (edges.getD e (0, 0)).2 < 4 ∧
      (edges.getD e (0, 0)).1 ≠ (edges.getD e (0, 0)).2 := by
  have h1 : edges[e]? = some (edges.getD e (0, 0)) := by
    simp [show e < edges.length by rw [h.1]; exact he]
  exact ⟨h1, h.2.1 _ (List.mem_of_getElem? h1)⟩

theorem tetEdgeRefs_ok {edges : List (Nat × Nat)} (h : TetEdgesOk edges) : tetEdgeRefs edges = .ok ((List.range 6).map (edgeRef edges)) := by
  unfold tetEdgeRefs
  apply mapM_ok
  intro e he
  obtain ⟨h1, h2, h3, h4⟩ := edges_getD h (List.mem_range.1 he)
  rw [(unchecked_ok_iff _ _ _).2 h1, except_ok_bind]
  exact mapAt_edges h2 h3 h4

theorem edgeRef_perm {edges : List (Nat × Nat)} (h : TetEdgesOk edges) :
    ((List.range 6).map fun e => (edgeRef edges e).1).Perm (List.range 6) := by
  apply perm_range_of_nodup
  · rw [List.nodup_map_iff_inj_on List.nodup_range]
    intro e he e' he' heq
    rw [List.mem_range] at he he'
    obtain ⟨h1, h2, h3, h4⟩ := edges_getD h he
    obtain ⟨h1', h2', h3', h4'⟩ := edges_getD h he'
    by_contra hne
    have hp := List.pairwise_iff_getElem.1 h.2.2
    have hi := edgeNo_inj h2 h3 h4 h2' h3' h4' heq
    have hlen := h.1
    obtain ⟨g1, g2⟩ := List.getElem?_eq_some_iff.1 h1
    obtain ⟨g1', g2'⟩ := List.getElem?_eq_some_iff.1 h1'
    rcases Nat.lt_or_gt_of_ne hne with hlt | hlt
    · have := hp e e' g1 g1' hlt
      rw [g2, g2'] at this
      rcases hi with hi | hi
      · exact this.1 hi
      · exact this.2 hi
    · have := hp e' e g1' g1 hlt
      rw [g2, g2'] at this
      rcases hi with hi | hi
      · exact this.1 hi.symm
      · apply this.2
        rw [show (edges.getD e' (0, 0)).swap = ((edges.getD e' (0, 0)).2, (edges.getD e' (0, 0)).1) from rfl]
        injection hi with hi1 hi2
        rw [hi1, hi2]
  · intro a ha
    rw [List.mem_map] at ha
    obtain ⟨e, he, rfl⟩ := ha
    obtain ⟨h1, h2, h3, h4⟩ := edges_getD h (List.mem_range.1 he)
    exact edgeNo_lt h2 h3 h4
  · simp

variable {K : Type} [Field K]

/-- The writes of an edge. -/
def edgeWrites (k : Nat) (edges : List (Nat × Nat)) (dirs : List Bool) (e : Nat) : List (Nat × Nat) :=
  (List.range' (4 + k * (edgeRef edges e).1) k).zip (if dirs.getD e true = (edgeRef edges e).2 then List.range' (4 + e * k) k
    else (List.range' (4 + e * k) k).reverse)

theorem tetEdgeWrites_ok (k : Nat) (edges : List (Nat × Nat)) (dirs : List Bool) (hd : dirs.length = 6) (e : Nat) (he : e < 6) :
    tetEdgeWrites (tetRef K k) dirs ((List.range 6).map (edgeRef edges)) e = .ok (edgeWrites k edges dirs e) := by
  unfold tetEdgeWrites
  have h1 : ((List.range 6).map (edgeRef edges))[e]? = some (edgeRef edges e) := by simp [he]
  have h2 : atIdx dirs e = .ok (dirs.getD e true) := by
    unfold atIdx
    rw [List.getElem?_eq_getElem (by omega)]
    simp [show e < dirs.length by omega]
  rw [(unchecked_ok_iff _ _ _).2 h1, except_ok_bind, h2, except_ok_bind]
  simp only [tetRef, Nat.mul_one, Nat.one_mul]
  rfl

theorem edgeWrites_fst (k : Nat) (edges : List (Nat × Nat)) (dirs : List Bool) (e : Nat) :
    (edgeWrites k edges dirs e).map Prod.fst = List.range' (4 + k * (edgeRef edges e).1) k := by
  unfold edgeWrites
  apply List.map_fst_zip
  split_ifs <;> simp

theorem edgeWrites_snd (k : Nat) (edges : List (Nat × Nat)) (dirs : List Bool) (e : Nat) :
    ((edgeWrites k edges dirs e).map Prod.snd).Perm (List.range' (4 + e * k) k) := by
  unfold edgeWrites
  rw [List.map_snd_zip (by split_ifs <;> simp)]
  split_ifs
  · exact List.Perm.refl _
  · exact List.reverse_perm _

theorem edgeWrites_mem (k : Nat) (edges : List (Nat × Nat)) (dirs : List Bool) (e j : Nat) (hj : j < k) :
    ((4 + (edgeRef edges e).1 * k + (if dirs.getD e true = (edgeRef edges e).2 then j else k - 1 - j), 4 + e * k + j) : Nat × Nat) ∈
      edgeWrites k edges dirs e := by
  unfold edgeWrites
  by_cases h : dirs.getD e true = (edgeRef edges e).2
  · rw [if_pos h, if_pos h]
    apply List.mem_of_getElem? (i := j)
    rw [List.getElem?_zip_eq_some]
    simp [hj, Nat.mul_comm]
  · rw [if_neg h, if_neg h]
    apply List.mem_of_getElem? (i := k - 1 - j)
    rw [List.getElem?_zip_eq_some, List.getElem?_reverse (by simp; omega), List.length_range', List.getElem?_range' (by omega),
      List.getElem?_range' (by omega)]
    constructor
    · congr 1; rw [Nat.mul_comm]; omega
    · congr 1; omega

end PolyDiM
