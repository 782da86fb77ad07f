import Verif.Model.Quadrature
import Verif.Spec.Quadrature
import Verif.Spec.Geometry
import Verif.Spec.PolyMesh
import Verif.Lemmas.FemHexa
import Mathlib.Tactic.Ring
import Mathlib.Tactic.Linarith
import Mathlib.Tactic.LinearCombination
import Mathlib.Tactic.Module

/-! Helper lemmas for the quadrature of polygons and polyhedra. -/

namespace PolyDiM

open Spec

/-- A loop with an invariant on the iterations done so far. -/
theorem foldlM_inv {σ α : Type} (f : σ → α → Except Fault σ) (inv : List α → σ → Prop) (l : List α) (s0 : σ) (h0 : inv [] s0)
    (hstep : ∀ pre a post s, l = pre ++ a :: post → inv pre s → ∃ s', f s a = .ok s' ∧ inv (pre ++ [a]) s') :
    ∃ s, l.foldlM f s0 = .ok s ∧ inv l s := by
  suffices H : ∀ (post pre : List α) (s : σ), l = pre ++ post → inv pre s → ∃ s', post.foldlM f s = .ok s' ∧ inv l s' from
    H l [] s0 rfl h0
  intro post
  induction post with
  | nil =>
    intro pre s h hi
    refine ⟨s, rfl, ?_⟩
    rw [h, List.append_nil]
    exact hi
  | cons a post ih =>
    intro pre s h hi
    obtain ⟨s', h1, h2⟩ := hstep pre a post s h hi
    rw [List.foldlM_cons, h1]
    exact ih (pre ++ [a]) s' (by simp [h]) h2

/-- A loop whose state is a function of the iterations done so far. -/
theorem foldlM_eq {σ α : Type} (f : σ → α → Except Fault σ) (G : List α → σ) (l : List α)
    (hstep : ∀ pre a post, l = pre ++ a :: post → f (G pre) a = .ok (G (pre ++ [a]))) : l.foldlM f (G []) = .ok (G l) := by
  obtain ⟨s, h1, h2⟩ := foldlM_inv f (fun pre s => s = G pre) l (G []) rfl (by
    intro pre a post s hl hs
    subst hs
    exact ⟨_, hstep pre a post hl, rfl⟩)
  rw [h1, h2]

theorem writeSeg_ok {α : Type} (A Z B b : List α) (n : Nat) (hz : Z.length = n) (hb : b.length = n) :
    writeSeg (A ++ Z ++ B) A.length n b = .ok (A ++ b ++ B) := by
  unfold writeSeg
  rw [if_pos ⟨hb, by simp [hz]⟩, show A.length + n = (A ++ Z).length by simp [hz], List.drop_left, List.append_assoc A Z B, List.take_left]

/-- Writing the next block of an array whose tail is still zero. -/
theorem writeSeg_next {α : Type} (z : α) (A b : List α) (m n off : Nat) (ho : off = A.length) (hb : b.length = n) :
    writeSeg (A ++ List.replicate (n + m) z) off n b = .ok (A ++ b ++ List.replicate m z) := by
  subst ho
  rw [← List.replicate_append_replicate, ← List.append_assoc]
  exact writeSeg_ok _ _ _ _ _ (by simp) hb

section
variable {K : Type} [Field K] [LinearOrder K]

theorem scaleArray_const (ws : List K) {P : Type} (ps : List P) (d : K) (h : ps.length = ws.length) :
    scaleArray ws (ps.map fun _ => d) = .ok (ws.map (· * |d|)) := by
  unfold scaleArray
  rw [if_pos (by simp [h])]
  congr 1
  apply List.ext_getElem
  · simp [h]
  · intro i h1 h2
    simp

theorem zipIdx_prefix {α : Type} (l : List α) (pre post : List (α × Nat)) (a : α × Nat) (h : l.zipIdx = pre ++ a :: post) :
    a.2 = pre.length ∧ l.length = pre.length + 1 + post.length ∧ l = pre.map Prod.fst ++ a.1 :: post.map Prod.fst := by
  have h1 : l.zipIdx[pre.length]? = some a := by rw [h]; simp
  have h2 : l.length = pre.length + 1 + post.length := by
    have := congrArg List.length h
    simp at this
    omega
  rw [List.getElem?_zipIdx] at h1
  obtain ⟨x, hx, rfl⟩ := Option.map_eq_some_iff.1 h1
  refine ⟨by simp, h2, ?_⟩
  have := congrArg (List.map Prod.fst) h
  simpa using this

theorem polygonQuad_eq (data : Rule (K × K) K) (tris : List (Tri2 K)) (h : data.points.length = data.weights.length) :
    polygonQuad data tris = .ok ⟨tris.flatMap fun v => data.points.map (tri2F v), tris.flatMap fun v => data.weights.map (· * |tri2Det v|)⟩ := by
  unfold polygonQuad
  have H := foldlM_eq (polygonQuadStep data) (fun pre =>
      (⟨(pre.map Prod.fst).flatMap (fun v => data.points.map (tri2F v)) ++ List.replicate ((tris.length - pre.length) * data.points.length) 0,
        (pre.map Prod.fst).flatMap (fun v => data.weights.map (· * |tri2Det v|))
          ++ List.replicate ((tris.length - pre.length) * data.points.length) 0⟩ : Rule (K × K) K))
    tris.zipIdx (by
    intro pre a post hl
    obtain ⟨ha, hlen, _⟩ := zipIdx_prefix tris pre post a hl
    have hm : (tris.length - pre.length) * data.points.length = data.points.length + (tris.length - (pre.length + 1)) * data.points.length := by
      rw [hlen, show pre.length + 1 + post.length - pre.length = post.length + 1 by omega,
        show pre.length + 1 + post.length - (pre.length + 1) = post.length by omega]
      ring
    unfold polygonQuadStep
    dsimp only
    rw [hm, writeSeg_next _ _ _ _ _ _ (by rw [ha, flatMap_const_length _ _ data.points.length (by simp)]; simp [Nat.mul_comm]) (by simp), except_ok_bind,
      scaleArray_const _ _ _ h, except_ok_bind,
      writeSeg_next _ _ _ _ _ _ (by rw [ha, flatMap_const_length _ _ data.points.length (by simp [h])]; simp [Nat.mul_comm]) (by simp [h]), except_ok_bind]
    simp)
  simp only [List.map_nil, List.flatMap_nil, List.nil_append, List.length_nil, Nat.sub_zero, List.length_zipIdx, Nat.sub_self, Nat.zero_mul,
    List.replicate_zero, List.append_nil, List.zipIdx_map_fst] at H
  exact H

theorem polyhedronQuad_eq (data : Rule (Vec3 K) K) (tets : List (Tet3 K)) (h : data.points.length = data.weights.length) :
    polyhedronQuad data tets = .ok ⟨tets.flatMap fun v => data.points.map (tet3F v), tets.flatMap fun v => data.weights.map (· * |tet3Det v|)⟩ := by
  unfold polyhedronQuad
  have H := foldlM_eq (polyhedronQuadStep data) (fun pre =>
      (⟨(pre.map Prod.fst).flatMap (fun v => data.points.map (tet3F v)) ++ List.replicate ((tets.length - pre.length) * data.points.length) 0,
        (pre.map Prod.fst).flatMap (fun v => data.weights.map (· * |tet3Det v|))
          ++ List.replicate ((tets.length - pre.length) * data.points.length) 0⟩ : Rule (Vec3 K) K))
    tets.zipIdx (by
    intro pre a post hl
    obtain ⟨ha, hlen, _⟩ := zipIdx_prefix tets pre post a hl
    have hm : (tets.length - pre.length) * data.points.length = data.points.length + (tets.length - (pre.length + 1)) * data.points.length := by
      rw [hlen, show pre.length + 1 + post.length - pre.length = post.length + 1 by omega,
        show pre.length + 1 + post.length - (pre.length + 1) = post.length by omega]
      ring
    unfold polyhedronQuadStep
    dsimp only
    rw [hm, writeSeg_next _ _ _ _ _ _ (by rw [ha, flatMap_const_length _ _ data.points.length (by simp)]; simp [Nat.mul_comm]) (by simp), except_ok_bind,
      scaleArray_const _ _ _ h, except_ok_bind,
      writeSeg_next _ _ _ _ _ _ (by rw [ha, flatMap_const_length _ _ data.points.length (by simp [h])]; simp [Nat.mul_comm]) (by simp [h]), except_ok_bind]
    simp)
  simp only [List.map_nil, List.flatMap_nil, List.nil_append, List.length_nil, Nat.sub_zero, List.length_zipIdx, Nat.sub_self, Nat.zero_mul,
    List.replicate_zero, List.append_nil, List.zipIdx_map_fst] at H
  exact H

/-! ### Edges of a polygon -/

theorem unchecked_map_range {α : Type} (F : Nat → α) (n i : Nat) (h : i < n) : unchecked ((List.range n).map F) i = .ok (F i) := by
  unfold unchecked
  simp [h]

variable {g : PolyEdges K} {n : Nat} {V : Nat → K × K} {len : Nat → K} {dir : Nat → Bool} {nrm : Nat → K × K}

/-- The points of edge `i` at the parameters `ts`. -/
def edgePts (n : Nat) (V : Nat → K × K) (dir : Nat → Bool) (ts : List K) (i : Nat) : List (K × K) :=
  ts.map (segPoint (polyEdge n V (dir i) i).1 (polyEdge n V (dir i) i).2)

omit [LinearOrder K] in
theorem edgePoints_eq (hg : IsPoly g n V len dir nrm) (ts : List K) (i : Nat) (hi : i < n) :
    edgePoints g ts i = .ok (edgePts n V dir ts i) := by
  have hn : (i + 1) % n < n := Nat.mod_lt _ (by omega)
  unfold edgePoints
  dsimp only
  rw [hg.dirs, unchecked_map_range _ _ _ hi, except_ok_bind, hg.vertices, List.length_map, List.length_range,
    unchecked_map_range _ _ _ (by split_ifs; exacts [hi, hn]), except_ok_bind, hg.tangents, unchecked_map_range _ _ _ hi, except_ok_bind]
  unfold edgePts
  congr 1
  apply List.map_congr_left
  intro t _
  unfold segPoint polyEdge
  by_cases h : dir i = true
  · simp only [h, if_true]
    ext <;> simp <;> ring
  · simp only [h]
    ext <;> simp <;> ring

theorem writeEdge_eq (hg : IsPoly g n V len dir nrm) (ts ws : List K) (i off m : Nat) (hi : i < n) (hl : ts.length = ws.length)
    (P : List (K × K)) (W X Y : List K) (hP : off = P.length) (hW : off = W.length) (hX : off = X.length) (hY : off = Y.length) :
    writeEdge g ts ws ⟨P ++ List.replicate (ts.length + m) 0, W ++ List.replicate (ts.length + m) 0, X ++ List.replicate (ts.length + m) 0,
      Y ++ List.replicate (ts.length + m) 0⟩ i off
      = .ok ⟨P ++ edgePts n V dir ts i ++ List.replicate m 0, W ++ ws.map (· * |len i|) ++ List.replicate m 0,
        X ++ ws.map (· * ((nrm i).1 * |len i|)) ++ List.replicate m 0, Y ++ ws.map (· * ((nrm i).2 * |len i|)) ++ List.replicate m 0⟩ := by
  unfold writeEdge
  rw [hg.lengths, unchecked_map_range _ _ _ hi, except_ok_bind, hg.normals, unchecked_map_range _ _ _ hi, except_ok_bind,
    edgePoints_eq hg ts i hi, except_ok_bind]
  dsimp only
  rw [writeSeg_next _ _ _ _ _ _ hP (by simp [edgePts]), except_ok_bind, writeSeg_next _ _ _ _ _ _ hW (by simp [hl]), except_ok_bind,
    writeSeg_next _ _ _ _ _ _ hX (by simp [hl]), except_ok_bind, writeSeg_next _ _ _ _ _ _ hY (by simp [hl]), except_ok_bind]

theorem range_prefix (n : Nat) (pre post : List Nat) (a : Nat) (h : List.range n = pre ++ a :: post) :
    a = pre.length ∧ a < n ∧ n = pre.length + 1 + post.length ∧ pre = List.range a := by
  have h2 : n = pre.length + 1 + post.length := by
    have := congrArg List.length h
    simp at this
    omega
  have h1 : (List.range n)[pre.length]? = some a := by rw [h]; simp
  rw [List.getElem?_range (by omega)] at h1
  injection h1 with h1
  refine ⟨h1.symm, by omega, h2, ?_⟩
  have := congrArg (List.take pre.length) h
  rw [List.take_left, List.take_range] at this
  rw [← this, ← h1, Nat.min_eq_left (by omega)]

theorem edgesQuad_eq (hg : IsPoly g n V len dir nrm) (data : Rule K K) (hl : data.points.length = data.weights.length) :
    edgesQuad g data = .ok ⟨(List.range n).flatMap fun i => edgePts n V dir data.points i,
      (List.range n).flatMap fun i => data.weights.map (· * |len i|),
      (List.range n).flatMap fun i => data.weights.map (· * ((nrm i).1 * |len i|)),
      (List.range n).flatMap fun i => data.weights.map (· * ((nrm i).2 * |len i|))⟩ := by
  unfold edgesQuad
  have hv : g.vertices.length = n := by rw [hg.vertices]; simp
  have H := foldlM_eq (edgesStep g data) (fun pre =>
      ((⟨pre.flatMap (fun i => edgePts n V dir data.points i) ++ List.replicate ((n - pre.length) * data.points.length) 0,
        pre.flatMap (fun i => data.weights.map (· * |len i|)) ++ List.replicate ((n - pre.length) * data.points.length) 0,
        pre.flatMap (fun i => data.weights.map (· * ((nrm i).1 * |len i|))) ++ List.replicate ((n - pre.length) * data.points.length) 0,
        pre.flatMap (fun i => data.weights.map (· * ((nrm i).2 * |len i|))) ++ List.replicate ((n - pre.length) * data.points.length) 0⟩,
        pre.length * data.points.length) : EdgesRule K × Nat))
    (List.range n) (by
    intro pre a post hr
    obtain ⟨ha, han, hlen, _⟩ := range_prefix n pre post a hr
    have hm : (n - pre.length) * data.points.length = data.points.length + (n - (pre.length + 1)) * data.points.length := by
      rw [hlen, show pre.length + 1 + post.length - pre.length = post.length + 1 by omega,
        show pre.length + 1 + post.length - (pre.length + 1) = post.length by omega]
      ring
    unfold edgesStep
    dsimp only
    rw [hm, writeEdge_eq hg data.points data.weights a _ _ han hl _ _ _ _
      (by rw [flatMap_const_length _ _ data.points.length (by simp [edgePts])])
      (by rw [flatMap_const_length _ _ data.points.length (by simp [hl])])
      (by rw [flatMap_const_length _ _ data.points.length (by simp [hl])])
      (by rw [flatMap_const_length _ _ data.points.length (by simp [hl])]), except_ok_bind]
    simp [Nat.add_mul])
  simp only [List.flatMap_nil, List.nil_append, List.length_nil, Nat.sub_zero, List.length_range, Nat.sub_self, Nat.zero_mul,
    List.replicate_zero, List.append_nil] at H
  dsimp only
  rw [hv, ← hl, Nat.mul_comm data.points.length n, H, except_ok_bind]

/-! ### Sums -/

section
omit [LinearOrder K]

theorem quadSum_append {P : Type} (p q : List P) (v w : List K) (f : P → K) (h : p.length = v.length) :
    quadSum (p ++ q) (v ++ w) f = quadSum p v f + quadSum q w f := by
  unfold quadSum
  rw [List.zipWith_append h, List.sum_append]

theorem quadSum_nil {P : Type} (w : List K) (f : P → K) : quadSum [] w f = 0 := by simp [quadSum]

theorem quadSum_flatMap {P α : Type} (l : List α) (F : α → List P) (W : α → List K) (f : P → K) (h : ∀ a ∈ l, (F a).length = (W a).length) :
    quadSum (l.flatMap F) (l.flatMap W) f = (l.map fun a => quadSum (F a) (W a) f).sum := by
  induction l with
  | nil => simp [quadSum]
  | cons a l ih =>
    rw [List.flatMap_cons, List.flatMap_cons, quadSum_append _ _ _ _ _ (h a (by simp)), ih fun b hb => h b (by simp [hb]), List.map_cons,
      List.sum_cons]

theorem quadSum_map {P Q : Type} (ps : List P) (ws : List K) (h : P → Q) (f : Q → K) : quadSum (ps.map h) ws f = quadSum ps ws (f ∘ h) := by
  unfold quadSum
  rw [List.zipWith_map_left]
  rfl

theorem quadSum_smul {P : Type} (ps : List P) (ws : List K) (c : K) (f : P → K) : quadSum ps (ws.map (· * c)) f = c * quadSum ps ws f := by
  induction ps generalizing ws with
  | nil => simp [quadSum]
  | cons p ps ih =>
    cases ws with
    | nil => simp [quadSum]
    | cons w ws =>
      have := ih ws
      simp only [quadSum, List.map_cons, List.zipWith_cons_cons, List.sum_cons] at this ⊢
      rw [this]
      ring

theorem quadSum_one {P : Type} (ps : List P) (ws : List K) (h : ps.length = ws.length) : quadSum ps ws (fun _ => 1) = ws.sum := by
  unfold quadSum
  congr 1
  apply List.ext_getElem
  · simp [h]
  · intro i h1 h2
    simp

theorem quadSum_add {P : Type} (ps : List P) (ws : List K) (f h : P → K) :
    quadSum ps ws (fun p => f p + h p) = quadSum ps ws f + quadSum ps ws h := by
  induction ps generalizing ws with
  | nil => simp [quadSum]
  | cons p ps ih =>
    cases ws with
    | nil => simp [quadSum]
    | cons w ws =>
      have := ih ws
      simp only [quadSum, List.zipWith_cons_cons, List.sum_cons] at this ⊢
      rw [this]
      ring

theorem quadSum_const_mul {P : Type} (ps : List P) (ws : List K) (c : K) (f : P → K) :
    quadSum ps ws (fun p => c * f p) = c * quadSum ps ws f := by
  induction ps generalizing ws with
  | nil => simp [quadSum]
  | cons p ps ih =>
    cases ws with
    | nil => simp [quadSum]
    | cons w ws =>
      have := ih ws
      simp only [quadSum, List.zipWith_cons_cons, List.sum_cons] at this ⊢
      rw [this]
      ring

end

/-! ### Lobatto rule on the boundary -/

omit [LinearOrder K] in
theorem addAt_map (F : Nat → K) (B : List K) (n i : Nat) (x : K) (h : i < n) :
    addAt ((List.range n).map F ++ B) i x = .ok ((List.range n).map (fun j => F j + if i = j then x else 0) ++ B) := by
  unfold addAt
  have h1 : unchecked ((List.range n).map F ++ B) i = .ok (F i) := by
    unfold unchecked
    simp [List.getElem?_append, h]
  rw [h1, except_ok_bind]
  congr 1
  rw [List.set_append_left _ _ (by simpa using h)]
  congr 1
  apply List.ext_getElem
  · simp
  · intro j h2 h3
    rw [List.getElem_set]
    by_cases hj : i = j
    · subst hj
      simp
    · simp [hj]

/-- The weight accumulated on vertex `j` by the edges in `l`. -/
def vertexWeight (n : Nat) (a b : Nat → K) (l : List Nat) (j : Nat) : K :=
  (l.map fun e => (if e = j then a e else 0) + if (e + 1) % n = j then b e else 0).sum

omit [LinearOrder K] in
theorem addEnds_aux (n : Nat) (a b : Nat → K) (l : List Nat) (e : Nat) (B : List K) (he : e < n) (x y : K) (hx : x = a e) (hy : y = b e) :
    (do
      let w0 ← addAt ((List.range n).map (vertexWeight n a b l) ++ B) e x
      addAt w0 ((e + 1) % n) y) = .ok ((List.range n).map (vertexWeight n a b (l ++ [e])) ++ B) := by
  have hn : (e + 1) % n < n := Nat.mod_lt _ (by omega)
  rw [addAt_map _ _ _ _ _ he, except_ok_bind, addAt_map _ _ _ _ _ hn]
  subst hx hy
  congr 2
  apply List.map_congr_left
  intro j _
  unfold vertexWeight
  rw [List.map_append, List.sum_append]
  simp [add_assoc]

theorem addEnds_eq (hg : IsPoly g n V len dir nrm) (ext : K × K) (l : List Nat) (e : Nat) (he : e < n) (P : List (K × K)) (W X Y : List K) :
    addEnds g ext ⟨P, (List.range n).map (vertexWeight n (fun i => ext.1 * |len i|) (fun i => ext.2 * |len i|) l) ++ W,
        (List.range n).map (vertexWeight n (fun i => (nrm i).1 * |len i| * ext.1) (fun i => (nrm i).1 * |len i| * ext.2) l) ++ X,
        (List.range n).map (vertexWeight n (fun i => (nrm i).2 * |len i| * ext.1) (fun i => (nrm i).2 * |len i| * ext.2) l) ++ Y⟩ e
      = .ok ⟨P, (List.range n).map (vertexWeight n (fun i => ext.1 * |len i|) (fun i => ext.2 * |len i|) (l ++ [e])) ++ W,
        (List.range n).map (vertexWeight n (fun i => (nrm i).1 * |len i| * ext.1) (fun i => (nrm i).1 * |len i| * ext.2) (l ++ [e])) ++ X,
        (List.range n).map (vertexWeight n (fun i => (nrm i).2 * |len i| * ext.1) (fun i => (nrm i).2 * |len i| * ext.2) (l ++ [e])) ++ Y⟩ := by
  have hv : g.vertices.length = n := by rw [hg.vertices]; simp
  unfold addEnds
  dsimp only
  rw [hv, hg.lengths, unchecked_map_range _ _ _ he, except_ok_bind, hg.normals, unchecked_map_range _ _ _ he, except_ok_bind]
  have h1 := addEnds_aux n (fun i => ext.1 * |len i|) (fun i => ext.2 * |len i|) l e W he _ _ rfl rfl
  have h2 := addEnds_aux n (fun i => (nrm i).1 * |len i| * ext.1) (fun i => (nrm i).1 * |len i| * ext.2) l e X he _ _ rfl rfl
  have h3 := addEnds_aux n (fun i => (nrm i).2 * |len i| * ext.1) (fun i => (nrm i).2 * |len i| * ext.2) l e Y he _ _ rfl rfl
  obtain ⟨w0, hw0, hw1⟩ := (bind_ok_iff _ _ _).1 h1
  obtain ⟨x0, hx0, hx1⟩ := (bind_ok_iff _ _ _).1 h2
  obtain ⟨y0, hy0, hy1⟩ := (bind_ok_iff _ _ _).1 h3
  rw [hw0, except_ok_bind, hw1, except_ok_bind, hx0, except_ok_bind, hx1, except_ok_bind, hy0, except_ok_bind, hy1, except_ok_bind]

theorem lobattoQuad_eq (hg : IsPoly g n V len dir nrm) (ts ws : List K) (ext : K × K) (hl : ts.length = ws.length) :
    lobattoQuad g ts ws ext = .ok ⟨(List.range n).map V ++ (List.range n).flatMap fun i => edgePts n V dir ts i,
      (List.range n).map (vertexWeight n (fun i => ext.1 * |len i|) (fun i => ext.2 * |len i|) (List.range n))
        ++ (List.range n).flatMap fun i => ws.map (· * |len i|),
      (List.range n).map (vertexWeight n (fun i => (nrm i).1 * |len i| * ext.1) (fun i => (nrm i).1 * |len i| * ext.2) (List.range n))
        ++ (List.range n).flatMap fun i => ws.map (· * ((nrm i).1 * |len i|)),
      (List.range n).map (vertexWeight n (fun i => (nrm i).2 * |len i| * ext.1) (fun i => (nrm i).2 * |len i| * ext.2) (List.range n))
        ++ (List.range n).flatMap fun i => ws.map (· * ((nrm i).2 * |len i|))⟩ := by
  unfold lobattoQuad
  have hv : g.vertices.length = n := by rw [hg.vertices]; simp
  have H := foldlM_eq (lobattoStep g ts ws ext) (fun pre =>
      ((⟨((List.range n).map V ++ pre.flatMap (fun i => edgePts n V dir ts i)) ++ List.replicate ((n - pre.length) * ts.length) 0,
        (List.range n).map (vertexWeight n (fun i => ext.1 * |len i|) (fun i => ext.2 * |len i|) pre)
          ++ (pre.flatMap (fun i => ws.map (· * |len i|)) ++ List.replicate ((n - pre.length) * ts.length) 0),
        (List.range n).map (vertexWeight n (fun i => (nrm i).1 * |len i| * ext.1) (fun i => (nrm i).1 * |len i| * ext.2) pre)
          ++ (pre.flatMap (fun i => ws.map (· * ((nrm i).1 * |len i|))) ++ List.replicate ((n - pre.length) * ts.length) 0),
        (List.range n).map (vertexWeight n (fun i => (nrm i).2 * |len i| * ext.1) (fun i => (nrm i).2 * |len i| * ext.2) pre)
          ++ (pre.flatMap (fun i => ws.map (· * ((nrm i).2 * |len i|))) ++ List.replicate ((n - pre.length) * ts.length) 0)⟩,
        n + pre.length * ts.length) : EdgesRule K × Nat))
    (List.range n) (by
    intro pre a post hr
    obtain ⟨ha, han, hlen, _⟩ := range_prefix n pre post a hr
    have hm : (n - pre.length) * ts.length = ts.length + (n - (pre.length + 1)) * ts.length := by
      rw [hlen, show pre.length + 1 + post.length - pre.length = post.length + 1 by omega,
        show pre.length + 1 + post.length - (pre.length + 1) = post.length by omega]
      ring
    unfold lobattoStep
    dsimp only
    rw [addEnds_eq hg ext pre a han, except_ok_bind]
    by_cases hw : ws.length > 0
    · rw [if_pos hw, hm]
      simp only [← List.append_assoc]
      rw [writeEdge_eq hg ts ws a _ _ han hl _ _ _ _
        (by rw [List.length_append, flatMap_const_length _ _ ts.length (by simp [edgePts])]; simp)
        (by rw [List.length_append, flatMap_const_length _ _ ts.length (by simp [hl])]; simp)
        (by rw [List.length_append, flatMap_const_length _ _ ts.length (by simp [hl])]; simp)
        (by rw [List.length_append, flatMap_const_length _ _ ts.length (by simp [hl])]; simp), except_ok_bind]
      simp [Nat.add_mul, Nat.add_assoc]
    · rw [if_neg hw]
      have h0 : ws = [] := List.eq_nil_of_length_eq_zero (by omega)
      have h1 : ts = [] := List.eq_nil_of_length_eq_zero (by rw [hl, h0]; rfl)
      simp [h0, h1, edgePts])
  have hz : ∀ a b : Nat → K, (List.range n).map (vertexWeight n a b []) = List.replicate n 0 := by
    intro a b
    rw [List.eq_replicate_iff]
    simp [vertexWeight]
  simp only [List.flatMap_nil, List.nil_append, List.length_nil, Nat.sub_zero, List.length_range, Nat.sub_self, Nat.zero_mul,
    List.replicate_zero, List.append_nil, hz, List.replicate_append_replicate, Nat.add_zero] at H
  dsimp only
  rw [hv, Nat.add_sub_cancel_left, ← hl, Nat.mul_comm ts.length n, hg.vertices, H, except_ok_bind]

omit [LinearOrder K] in
theorem quadSum_range (n : Nat) (V : Nat → K × K) (w : Nat → K) (f : K × K → K) :
    quadSum ((List.range n).map V) ((List.range n).map w) f = ∑ j ∈ Finset.range n, w j * f (V j) := by
  unfold quadSum
  rw [List.zipWith_map, List.zipWith_self]
  exact (list_map_sum_range _ _ (fun j => w j * f (V j)) n (by simp) (by
    intro i a h
    rw [List.getElem?_eq_some_iff] at h
    obtain ⟨h1, h2⟩ := h
    rw [List.getElem_range] at h2
    subst h2
    rfl)).symm

omit [LinearOrder K] in
/-- The vertices collect the weights of the ends of all edges. -/
theorem vertexWeight_sum (n : Nat) (V : Nat → K × K) (a b : Nat → K) (f : K × K → K) :
    quadSum ((List.range n).map V) ((List.range n).map (vertexWeight n a b (List.range n))) f
      = ∑ e ∈ Finset.range n, (a e * f (V e) + b e * f (V ((e + 1) % n))) := by
  rw [quadSum_range]
  have h1 : ∀ j, vertexWeight n a b (List.range n) j
      = ∑ e ∈ Finset.range n, ((if e = j then a e else 0) + if (e + 1) % n = j then b e else 0) := by
    intro j
    unfold vertexWeight
    exact (list_map_sum_range _ _ (fun e => (if e = j then a e else 0) + if (e + 1) % n = j then b e else 0) n (by simp) (by
      intro i a h
      rw [List.getElem?_eq_some_iff] at h
      obtain ⟨h1, h2⟩ := h
      rw [List.getElem_range] at h2
      subst h2
      rfl)).symm
  simp only [h1, Finset.sum_mul]
  rw [Finset.sum_comm]
  apply Finset.sum_congr rfl
  intro e he
  rw [Finset.mem_range] at he
  have hn : (e + 1) % n < n := Nat.mod_lt _ (by omega)
  simp only [add_mul, ite_mul, zero_mul, Finset.sum_add_distrib, Finset.sum_ite_eq, Finset.mem_range, he, hn, if_true]

/-! ### Faces -/

omit [Field K] [LinearOrder K] in
theorem facesCount_eq (rules : List (Rule (K × K) K)) (nf : Nat) (h : nf ≤ rules.length) :
    facesCount rules nf = .ok ((rules.take nf).map fun r => r.points.length).sum := by
  unfold facesCount
  have H := foldlM_eq (fun n f => do
      let rule ← unchecked rules f
      .ok (n + rule.points.length)) (fun pre => ((rules.take pre.length).map fun r => r.points.length).sum) (List.range nf) (by
    intro pre a post hr
    obtain ⟨ha, han, hlen, _⟩ := range_prefix nf pre post a hr
    have hlt : a < rules.length := by omega
    have h1 : unchecked rules a = .ok rules[a] := by unfold unchecked; simp [hlt]
    rw [h1, except_ok_bind]
    congr 1
    rw [List.length_append, List.length_singleton, ← ha, List.take_add_one, List.map_append, List.sum_append]
    simp [hlt])
  simp only [List.length_range] at H
  simpa using H

theorem flatMap_take_length {α β : Type} (l : List α) (F : α → List β) (c : α → Nat) (h : ∀ a ∈ l, (F a).length = c a) (m : Nat) :
    ((l.take m).flatMap F).length = ((l.take m).map c).sum := by
  rw [List.length_flatMap]
  congr 1
  apply List.map_congr_left
  intro a ha
  exact h a (List.mem_of_mem_take ha)

omit [LinearOrder K] in
/-- The faces with their quadratures. -/
theorem facesQuad_eq (fr : List (FaceFrame K × Rule (K × K) K)) (h : ∀ x ∈ fr, x.2.points.length = x.2.weights.length) :
    facesQuad (fr.map Prod.fst) (fr.map Prod.snd) = .ok ⟨fr.flatMap fun x => x.2.points.map (frameLift x.1), fr.flatMap fun x => x.2.weights,
      fr.flatMap fun x => x.2.weights.map (· * (if x.1.outward then (1 : K) else -1) * x.1.normal.1),
      fr.flatMap fun x => x.2.weights.map (· * (if x.1.outward then (1 : K) else -1) * x.1.normal.2.1),
      fr.flatMap fun x => x.2.weights.map (· * (if x.1.outward then (1 : K) else -1) * x.1.normal.2.2)⟩ := by
  unfold facesQuad
  have hN := facesCount_eq (fr.map Prod.snd) fr.length (by simp)
  rw [List.take_of_length_le (by simp), List.map_map] at hN
  have H := foldlM_eq (facesStep (fr.map Prod.fst) (fr.map Prod.snd)) (fun pre =>
      let m := pre.length
      let rest := ((fr.drop m).map fun x => x.2.points.length).sum
      ((⟨(fr.take m).flatMap (fun x => x.2.points.map (frameLift x.1)) ++ List.replicate rest 0,
        (fr.take m).flatMap (fun x => x.2.weights) ++ List.replicate rest 0,
        (fr.take m).flatMap (fun x => x.2.weights.map (· * (if x.1.outward then (1 : K) else -1) * x.1.normal.1)) ++ List.replicate rest 0,
        (fr.take m).flatMap (fun x => x.2.weights.map (· * (if x.1.outward then (1 : K) else -1) * x.1.normal.2.1)) ++ List.replicate rest 0,
        (fr.take m).flatMap (fun x => x.2.weights.map (· * (if x.1.outward then (1 : K) else -1) * x.1.normal.2.2)) ++ List.replicate rest 0⟩,
        ((fr.take m).map fun x => x.2.points.length).sum) : FacesRule K × Nat))
    (List.range fr.length) (by
    intro pre a post hr
    obtain ⟨ha, han, hlen, _⟩ := range_prefix fr.length pre post a hr
    have h1 : unchecked (fr.map Prod.fst) a = .ok fr[a].1 := by unfold unchecked; simp [han]
    have h2 : unchecked (fr.map Prod.snd) a = .ok fr[a].2 := by unfold unchecked; simp [han]
    have hd : fr.drop a = fr[a] :: fr.drop (a + 1) := List.drop_eq_getElem_cons han
    have hx := h fr[a] (List.getElem_mem han)
    have hw : ∀ x ∈ fr, x.2.weights.length = x.2.points.length := fun x hx => (h x hx).symm
    have hc : ∀ c : FaceFrame K → K, ∀ x ∈ fr, (x.2.weights.map (· * (if x.1.outward then (1 : K) else -1) * c x.1)).length = x.2.points.length := by
      intro c x hx
      rw [List.length_map, h x hx]
    unfold facesStep
    dsimp only
    rw [List.length_append, List.length_singleton, ← ha, h1, except_ok_bind, h2, except_ok_bind, hd, List.map_cons, List.sum_cons]
    rw [writeSeg_next _ _ _ _ _ _ (flatMap_take_length fr _ (fun x => x.2.points.length) (by simp) a).symm (by simp), except_ok_bind,
      writeSeg_next _ _ _ _ _ _ (flatMap_take_length fr _ (fun x => x.2.points.length) hw a).symm hx.symm, except_ok_bind,
      writeSeg_next _ _ _ _ _ _ (flatMap_take_length fr _ (fun x => x.2.points.length) (hc fun f => f.normal.1) a).symm
        (by rw [List.length_map, hx]), except_ok_bind,
      writeSeg_next _ _ _ _ _ _ (flatMap_take_length fr _ (fun x => x.2.points.length) (hc fun f => f.normal.2.1) a).symm
        (by rw [List.length_map, hx]), except_ok_bind,
      writeSeg_next _ _ _ _ _ _ (flatMap_take_length fr _ (fun x => x.2.points.length) (hc fun f => f.normal.2.2) a).symm
        (by rw [List.length_map, hx]), except_ok_bind]
    have ht : fr.take (a + 1) = fr.take a ++ [fr[a]] := by rw [List.take_add_one]; simp [han]
    rw [ht]
    simp only [List.flatMap_append, List.flatMap_cons, List.flatMap_nil, List.append_nil, List.map_append, List.map_cons, List.map_nil,
      List.sum_append, List.sum_cons, List.sum_nil, Nat.add_zero])
  dsimp only
  rw [List.length_map, hN, except_ok_bind]
  simp only [List.length_nil, List.take_zero, List.flatMap_nil, List.nil_append, List.drop_zero, List.length_range, List.take_length,
    List.drop_length, List.map_nil, List.sum_nil, List.replicate_zero, List.append_nil] at H
  simp only [Function.comp_def]
  rw [H, except_ok_bind]

omit [LinearOrder K] in
theorem mccFaces_fold (fr : List (FaceFrame K × Rule (K × K) K)) (h : ∀ x ∈ fr, x.2.points.length = x.2.weights.length) :
    (List.range fr.length).foldlM (mccFacesStep (fr.map Prod.fst) (fr.map Prod.snd))
      (⟨List.replicate (fr.map fun x => x.2.points.length).sum 0, List.replicate (fr.map fun x => x.2.points.length).sum 0⟩, 0)
      = .ok (⟨fr.flatMap fun x => x.2.points.map (frameLift x.1), fr.flatMap fun x => x.2.weights⟩, (fr.map fun x => x.2.points.length).sum) := by
  have H := foldlM_eq (mccFacesStep (fr.map Prod.fst) (fr.map Prod.snd)) (fun pre =>
      let m := pre.length
      let rest := ((fr.drop m).map fun x => x.2.points.length).sum
      ((⟨(fr.take m).flatMap (fun x => x.2.points.map (frameLift x.1)) ++ List.replicate rest 0,
        (fr.take m).flatMap (fun x => x.2.weights) ++ List.replicate rest 0⟩,
        ((fr.take m).map fun x => x.2.points.length).sum) : Rule (Vec3 K) K × Nat))
    (List.range fr.length) (by
    intro pre a post hr
    obtain ⟨ha, han, hlen, _⟩ := range_prefix fr.length pre post a hr
    have h1 : unchecked (fr.map Prod.fst) a = .ok fr[a].1 := by unfold unchecked; simp [han]
    have h2 : unchecked (fr.map Prod.snd) a = .ok fr[a].2 := by unfold unchecked; simp [han]
    have hd : fr.drop a = fr[a] :: fr.drop (a + 1) := List.drop_eq_getElem_cons han
    have hx := h fr[a] (List.getElem_mem han)
    have hw : ∀ x ∈ fr, x.2.weights.length = x.2.points.length := fun x hx => (h x hx).symm
    unfold mccFacesStep
    dsimp only
    rw [List.length_append, List.length_singleton, ← ha, h1, except_ok_bind, h2, except_ok_bind, hd, List.map_cons, List.sum_cons]
    rw [writeSeg_next _ _ _ _ _ _ (flatMap_take_length fr _ (fun x => x.2.points.length) (by simp) a).symm (by simp), except_ok_bind,
      writeSeg_next _ _ _ _ _ _ (flatMap_take_length fr _ (fun x => x.2.points.length) hw a).symm hx.symm, except_ok_bind]
    have ht : fr.take (a + 1) = fr.take a ++ [fr[a]] := by rw [List.take_add_one]; simp [han]
    rw [ht]
    simp only [List.flatMap_append, List.flatMap_cons, List.flatMap_nil, List.append_nil, List.map_append, List.map_cons, List.map_nil,
      List.sum_append, List.sum_cons, List.sum_nil, Nat.add_zero])
  simp only [List.length_nil, List.take_zero, List.flatMap_nil, List.nil_append, List.drop_zero, List.length_range, List.take_length,
    List.drop_length, List.map_nil, List.sum_nil, List.replicate_zero, List.append_nil] at H
  exact H

/-- The quadrature of one triangulated face. -/
def faceRule (data : Rule (K × K) K) (tris : List (Tri2 K)) : Rule (K × K) K :=
  ⟨tris.flatMap fun v => data.points.map (tri2F v), tris.flatMap fun v => data.weights.map (· * |tri2Det v|)⟩

theorem faceRule_length (data : Rule (K × K) K) (tris : List (Tri2 K)) (h : data.points.length = data.weights.length) :
    (faceRule data tris).points.length = (faceRule data tris).weights.length := by
  unfold faceRule
  rw [flatMap_const_length _ _ data.points.length (by simp), flatMap_const_length _ _ data.points.length (by simp [h])]

theorem mccFacesQuad_eq (data : Rule (K × K) K) (tf : List (List (Tri2 K) × FaceFrame K)) (h : data.points.length = data.weights.length) :
    mccFacesQuad data (tf.map Prod.fst) (tf.map Prod.snd) = .ok (tf.map fun x => faceRule data x.1,
      ⟨tf.flatMap fun x => (faceRule data x.1).points.map (frameLift x.2), tf.flatMap fun x => (faceRule data x.1).weights⟩) := by
  unfold mccFacesQuad
  dsimp only
  have h1 : (tf.map Prod.fst).mapM (polygonQuad data) = .ok (tf.map fun x => faceRule data x.1) := by
    rw [mapM_ok (polygonQuad data) (faceRule data) _ fun t _ => polygonQuad_eq data t h, List.map_map]
    rfl
  have h2 := mccFaces_fold (tf.map fun x => (x.2, faceRule data x.1)) (by
    intro x hx
    obtain ⟨y, _, rfl⟩ := List.mem_map.1 hx
    exact faceRule_length data _ h)
  have hN := facesCount_eq (tf.map fun x => faceRule data x.1) tf.length (by simp)
  rw [List.take_of_length_le (by simp)] at hN
  rw [h1, except_ok_bind, List.length_map, hN, except_ok_bind]
  simp only [List.map_map, List.length_map, List.flatMap_map, Function.comp_def] at h2 ⊢
  rw [show (List.map (fun x : List (Tri2 K) × FaceFrame K => x.2) tf) = tf.map Prod.snd from rfl] at h2
  rw [h2, except_ok_bind]

omit [LinearOrder K] in
theorem polyhedronEdgePoints_eq (ts : List K) (V : List (Vec3 K)) (edges : List (Nat × Nat)) (dirs : List Bool) (tangents : List (Vec3 K))
    (pt : Nat → Vec3 K) (hV : ∀ e ∈ edges, V[e.1]? = some (pt e.1) ∧ V[e.2]? = some (pt e.2)) (dir : Nat → Bool)
    (hd : dirs = (List.range edges.length).map dir) (ht : tangents = edges.map fun e => pt e.2 - pt e.1) :
    polyhedronEdgePoints ts V edges dirs tangents = .ok (edges.zipIdx.flatMap fun e =>
      ts.map fun t => if dir e.2 then (1 - t) • pt e.1.1 + t • pt e.1.2 else (1 - t) • pt e.1.2 + t • pt e.1.1) := by
  unfold polyhedronEdgePoints
  have h := mapM_ok (fun i => do
      let e ← unchecked edges i
      let dir ← unchecked dirs i
      let start ← unchecked V (if dir then e.1 else e.2)
      let tangent ← unchecked tangents i
      let direction : K := if dir then 1 else -1
      Except.ok (ts.map fun t => start + (direction * t) • tangent))
    (fun i => ts.map fun t => if dir i then (1 - t) • pt (edges.getD i (0, 0)).1 + t • pt (edges.getD i (0, 0)).2
      else (1 - t) • pt (edges.getD i (0, 0)).2 + t • pt (edges.getD i (0, 0)).1) (List.range edges.length) (by
    intro i hi
    rw [List.mem_range] at hi
    have h1 : unchecked edges i = .ok edges[i] := by unfold unchecked; simp [hi]
    have h2 : edges.getD i (0, 0) = edges[i] := by simp [List.getD, hi]
    have h3 : unchecked tangents i = .ok (pt edges[i].2 - pt edges[i].1) := by unfold unchecked; simp [ht, hi]
    have h4 := hV edges[i] (List.getElem_mem hi)
    rw [h2, h1, except_ok_bind, hd, unchecked_map_range _ _ _ hi, except_ok_bind]
    by_cases hb : dir i = true
    · have h5 : unchecked V edges[i].1 = .ok (pt edges[i].1) := by unfold unchecked; rw [h4.1]
      simp only [hb, if_true]
      rw [h5, except_ok_bind, h3, except_ok_bind]
      congr 1
      apply List.map_congr_left
      intro t _
      module
    · have h5 : unchecked V edges[i].2 = .ok (pt edges[i].2) := by unfold unchecked; rw [h4.2]
      simp only [hb]
      rw [if_neg (by simp), h5, except_ok_bind, h3, except_ok_bind]
      congr 1
      apply List.map_congr_left
      intro t _
      rw [if_neg (by simp), if_neg (by simp)]
      module)
  rw [h, except_ok_bind, ← List.flatMap_def]
  congr 1
  have hz : edges.zipIdx = (List.range edges.length).map fun i => (edges.getD i (0, 0), i) := by
    apply List.ext_getElem
    · simp
    · intro i h1 h2
      have : i < edges.length := by simpa using h1
      simp [this]
  rw [hz, List.flatMap_map]
/-! ### Whole rules on the edges -/

omit [LinearOrder K] in
theorem lobatto_sum_aux (n : Nat) (V : Nat → K × K) (dir : Nat → Bool) (ts ws : List K) (c : Nat → K) (a b : K) (u v : Nat → K)
    (hu : ∀ i, u i = c i * a) (hv : ∀ i, v i = c i * b) (hl : ts.length = ws.length) (f : K × K → K) :
    quadSum ((List.range n).map V ++ (List.range n).flatMap fun i => edgePts n V dir ts i)
      ((List.range n).map (vertexWeight n u v (List.range n)) ++ (List.range n).flatMap fun i => ws.map (· * c i)) f
      = ∑ e ∈ Finset.range n, c e * (a * f (V e) + b * f (V ((e + 1) % n)) +
        quadSum ts ws fun t => f (segPoint (polyEdge n V (dir e) e).1 (polyEdge n V (dir e) e).2 t)) := by
  rw [quadSum_append _ _ _ _ _ (by simp), vertexWeight_sum, quadSum_flatMap _ _ _ _ (by simp [edgePts, hl])]
  have h : ((List.range n).map fun i => quadSum (edgePts n V dir ts i) (ws.map (· * c i)) f).sum
      = ∑ e ∈ Finset.range n, c e * quadSum ts ws fun t => f (segPoint (polyEdge n V (dir e) e).1 (polyEdge n V (dir e) e).2 t) := by
    refine (list_map_sum_range _ _ _ n (by simp) ?_).symm
    intro i a h
    rw [List.getElem?_eq_some_iff] at h
    obtain ⟨h1, h2⟩ := h
    rw [List.getElem_range] at h2
    subst h2
    rw [quadSum_smul]
    unfold edgePts
    rw [quadSum_map]
    rfl
  rw [h, ← Finset.sum_add_distrib]
  apply Finset.sum_congr rfl
  intro e _
  rw [hu, hv]
  ring

omit [LinearOrder K] in
/-- The rule with ends: the quadrature of `f` along an edge does not depend on its direction for the ends if they have the same weight. -/
theorem rule_ends (e : Nat) (ts ws : List K) (w : K) (hl : ts.length = ws.length) (f : K × K → K) :
    w * f (V e) + w * f (V ((e + 1) % n)) + quadSum ts ws (fun t => f (segPoint (polyEdge n V (dir e) e).1 (polyEdge n V (dir e) e).2 t))
      = quadSum (0 :: ts ++ [1]) (w :: ws ++ [w]) fun t => f (segPoint (polyEdge n V (dir e) e).1 (polyEdge n V (dir e) e).2 t) := by
  rw [quadSum_append _ _ _ _ _ (by simp [hl])]
  have h1 : ∀ (F : K → K), quadSum (0 :: ts) (w :: ws) F = w * F 0 + quadSum ts ws F := by
    intro F
    simp [quadSum]
  have h2 : ∀ (F : K → K), quadSum [1] [w] F = w * F 1 := by
    intro F
    simp [quadSum]
  rw [h1, h2]
  have h3 : ∀ P Q : K × K, segPoint P Q (0 : K) = P := by
    intro P Q
    simp [segPoint]
  have h4 : ∀ P Q : K × K, segPoint P Q (1 : K) = Q := by
    intro P Q
    simp [segPoint]
  simp only [h3, h4]
  unfold polyEdge
  split_ifs <;> ring

/-- Going round the polygon visits every vertex once. -/
theorem sum_cyclic {R : Type} [AddCommMonoid R] (n : Nat) (G : Nat → R) : ∑ e ∈ Finset.range n, G ((e + 1) % n) = ∑ e ∈ Finset.range n, G e := by
  cases n with
  | zero => rfl
  | succ m =>
    rw [Finset.sum_range_succ, Finset.sum_range_succ', Nat.mod_self]
    congr 1
    apply Finset.sum_congr rfl
    intro e he
    rw [Finset.mem_range] at he
    rw [Nat.mod_eq_of_lt (by omega)]

omit [LinearOrder K] in
/-- Splitting a rule that has the ends as first and last points. -/
theorem lobattoSplit_ok (order : Nat) (ts ws : List K) (w : K) (hl : ts.length = ws.length) (ho : order = 1 → ts = [] ∧ w = 1 / 2) :
    lobattoSplit order ⟨0 :: ts ++ [1], w :: ws ++ [w]⟩ = .ok (ts, ws, (w, w)) := by
  unfold lobattoSplit
  by_cases h : order = 1
  · obtain ⟨rfl, rfl⟩ := ho h
    have : ws = [] := List.eq_nil_of_length_eq_zero hl.symm
    rw [if_pos h, this]
  · rw [if_neg h]
    dsimp only
    have hw : unchecked (w :: ws ++ [w]) ((w :: ws ++ [w]).length - 1) = .ok w := by
      unfold unchecked
      simp
    rw [if_neg (by simp), show unchecked (w :: ws ++ [w]) 0 = .ok w from rfl, except_ok_bind, hw, except_ok_bind, if_neg (by simp [hl])]
    simp [hl]
end

end PolyDiM
