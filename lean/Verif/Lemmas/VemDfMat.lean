import Verif.Lemmas.VemDfEdge

/-!
# Lemmas: rules and first matrices of the divergence-free virtual element
-/

namespace PolyDiM

open Spec MvPolynomial MeasureTheory

variable {k m n : Nat} {V : Nat → ℝ × ℝ} {len : Nat → ℝ} {dir : Nat → Bool} {nrm : Nat → ℝ × ℝ} {poly : VemPolygon ℝ}
  {triangle : Nat → Rule (ℝ × ℝ) ℝ} {edge : Nat → Rule ℝ ℝ} {ts ws ss vs : List ℝ} {w v₀ : ℝ} {sqrt : ℝ → ℝ} {red : Bool} {c : ℝ × ℝ} {h : ℝ} {g : GData ℝ}

theorem tri_pos {m : Nat} (hm : 0 < m) : 0 < tri m := by
  obtain ⟨j, rfl⟩ := Nat.exists_eq_succ_of_ne_zero hm.ne'
  rw [Nat.succ_eq_add_one, tri_succ]
  omega

theorem dfRef_ok (red : Bool) (hT : IsDfTables k triangle edge ts ws w ss vs v₀) : ∃ g, DecOk k g ∧
    dfRef2D red triangle edge k = .ok ⟨red, k, k - 1, tri (divDegree red k + 1) - 1, tri (k - 2), compute mono2 k, g, triangle (2 * k), (ss, vs, (v₀, v₀)), (ts, ws, (w, w))⟩ := by
  have h1 := hT.two
  have h2 := hT.below
  obtain ⟨g, hg, hgo⟩ := dec_ok k
  refine ⟨g, hgo, ?_⟩
  have hs : pccEdgeRule edge k = .ok (ts, ws, (w, w)) := by
    unfold pccEdgeRule
    rw [show u32 (2 * k + 4294967295) = 2 * k - 1 by unfold u32; omega, hT.edgeRule]
    exact lobattoSplit_ok k ts ws w hT.edgeLength fun hk => absurd hk (by omega)
  have hs' : dfSegmentRule edge k = .ok (ss, vs, (v₀, v₀)) := by
    unfold dfSegmentRule
    rw [show u32 (2 * k + 1) = 2 * k + 1 by unfold u32; omega, hT.segmentRule]
    exact lobattoSplit_ok k ss vs v₀ hT.segmentLength fun hk => absurd hk (by omega)
  unfold dfRef2D
  rw [hg, except_ok_bind, hs', except_ok_bind, hs, except_ok_bind]
  have e1 : u32 (k + 4294967295) = k - 1 := by unfold u32; omega
  have e1' : u32 (k + 4294967294) = k - 2 := by unfold u32; omega
  have e1'' : u32 (k + 1) = k + 1 := by unfold u32; omega
  have e2 : u32 (k * (k + 1)) = k * (k + 1) := by
    unfold u32
    refine Nat.mod_eq_of_lt ?_
    calc k * (k + 1) ≤ 65535 * 65536 := Nat.mul_le_mul h2 (by omega)
      _ < 4294967296 := by norm_num
  have e2' : u32 ((k - 2) * (k - 1)) = (k - 2) * (k - 1) := by
    unfold u32
    refine Nat.mod_eq_of_lt ?_
    calc (k - 2) * (k - 1) ≤ 65535 * 65536 := Nat.mul_le_mul (by omega) (by omega)
      _ < 4294967296 := by norm_num
  have e3 : u32 (2 * k) = 2 * k := by unfold u32; omega
  have e4 : (k - 2) * (k - 1) / 2 = tri (k - 2) := by
    rw [← tri_div', show k - 2 + 1 = k - 1 by omega]
  have e5 : (if red then 0 else u32 (tri k + 4294967295)) = tri (divDegree red k + 1) - 1 := by
    unfold divDegree
    cases red
    · have hp := tri_pos (show 0 < k by omega)
      have hl : tri k < 4294967296 := by
        rw [← tri_div']
        have : k * (k + 1) ≤ 65535 * 65536 := Nat.mul_le_mul h2 (by omega)
        omega
      simp only [Bool.false_eq_true, if_false]
      rw [show k - 1 + 1 = k by omega]
      unfold u32
      omega
    · rfl
  rw [e1, e1', e1'', e2, e2', e3, e4, tri_div', e5]

/-- The second rule on the edges. -/
structure SegOk (k n : Nat) (V : Nat → ℝ × ℝ) (dir : Nat → Bool) (ss vs : List ℝ) (v₀ : ℝ) (bnd : EdgesRule ℝ) : Prop where
  points : bnd.points = dfPoints n V dir ss
  xlen : bnd.nx.length = bnd.points.length
  ylen : bnd.ny.length = bnd.points.length
  anyX : ∀ f : ℝ × ℝ → ℝ, quadSum bnd.points bnd.nx f = ∑ e ∈ Finset.range n, (V ((e + 1) % n) - V e).2 *
    quadSum (0 :: ss ++ [1]) (v₀ :: vs ++ [v₀]) fun t => f (segPoint (polyEdge n V (dir e) e).1 (polyEdge n V (dir e) e).2 t)
  anyY : ∀ f : ℝ × ℝ → ℝ, quadSum bnd.points bnd.ny f = ∑ e ∈ Finset.range n, -(V ((e + 1) % n) - V e).1 *
    quadSum (0 :: ss ++ [1]) (v₀ :: vs ++ [v₀]) fun t => f (segPoint (polyEdge n V (dir e) e).1 (polyEdge n V (dir e) e).2 t)

theorem seg_ok (hE : IsElement poly n V len dir nrm) (hl : ss.length = vs.length) :
    ∃ bnd, lobattoQuad poly.edges ss vs (v₀, v₀) = .ok bnd ∧ SegOk k n V dir ss vs v₀ bnd := by
  obtain ⟨b, hb, hbp, _, hb2, hb3, _⟩ := C48_sum hE.edges ss vs (v₀, v₀) hl
  obtain ⟨b', hb', _, hx, hy⟩ := C48_rule hE.edges ss vs v₀ hl
  obtain rfl : b' = b := by rw [hb] at hb'; exact (Except.ok.inj hb').symm
  refine ⟨b', hb, hbp, hb2, hb3, ?_, ?_⟩
  · intro f
    refine (hx f).trans (Finset.sum_congr rfl fun e he => ?_)
    rw [(normal_parts hE (Finset.mem_range.1 he)).1]
  · intro f
    refine (hy f).trans (Finset.sum_congr rfl fun e he => ?_)
    rw [(normal_parts hE (Finset.mem_range.1 he)).2]

/-- The vector fields of the orthogonal part. -/
noncomputable def gPoly (k : Nat) (c : ℝ × ℝ) (h : ℝ) (d : Nat) (l : Nat) : MvPolynomial (Fin 2) ℝ :=
  if d = 0 then basisPoly k c h l * basisPoly 1 c h 2 else -(basisPoly k c h l * basisPoly 1 c h 1)

theorem dfGBig_ok (hg : DecOk k g) (hk : 1 ≤ k) (points : List (ℝ × ℝ)) {X : DMat ℝ} (hX : Values points (tri (k + 1)) (basisPoly k c h) X) (d : Fin 2) :
    ∃ Y, dfGBig g X d = .ok Y ∧ Values points (tri k) (gPoly k c h d) Y := by
  have h3 : 3 ≤ tri (k + 1) := by
    have : tri 2 ≤ tri (k + 1) := tri_le (by omega)
    exact this
  have hle : tri k ≤ tri (k + 1) := tri_le (by omega)
  have hB : ∀ j, j < 3 → basisPoly k c h j = basisPoly 1 c h j := fun j hj => basis_mono hk c h (by exact hj)
  unfold dfGBig
  rw [hg.nkm1, mapM_ok _ (fun i => (List.range (tri k)).map fun j => if (d : Nat) = 0 then X.ent i j * X.ent i 2 else X.ent i j * (-1 * X.ent i 1)) _ (by
    intro i _
    refine mapM_ok _ _ _ fun j hj => ?_
    rw [List.mem_range] at hj
    unfold gbig2
    rw [hg.nkm1, hX.cols, if_pos ⟨hle, by omega, hj, d.isLt⟩]), except_ok_bind]
  refine ⟨_, rfl, hX.rows, rfl, ?_⟩
  intro i p hi j hj
  have hil := (List.getElem?_eq_some_iff.1 hi).1
  dsimp only
  rw [hX.rows]
  simp only [List.getD_eq_getElem?_getD, List.getElem?_map, List.getElem?_range hil, List.getElem?_range hj, Option.map_some, Option.getD_some]
  rw [hX.ent i p hi j (by omega), hX.ent i p hi 2 (by omega), hX.ent i p hi 1 (by omega), hB 2 (by omega), hB 1 (by omega)]
  unfold gPoly
  by_cases hd : (d : Nat) = 0
  · rw [if_pos hd, if_pos hd]
    simp [ev2]
  · rw [if_neg hd, if_neg hd]
    simp [ev2]

/-- What `InitializeProjectorsComputation` guarantees. -/
structure DfInitOk (k m n : Nat) (V : Nat → ℝ × ℝ) (c : ℝ × ℝ) (h : ℝ) (internal : Rule (ℝ × ℝ) ℝ) (bnd dofs : List (ℝ × ℝ)) (s : DfInit2D ℝ) : Prop where
  nv : s.numVertex + s.numEdge = dofs.length
  numBoundary : s.numBoundary = 2 * dofs.length
  numDiv : s.numDiv = tri (m + 1) - 1
  numBig : s.numBig = tri (k - 2)
  numBasis : s.numBasis = 2 * dofs.length + (tri (k - 2) + (tri (m + 1) - 1))
  nkp1 : s.nkp1 = tri (k + 2)
  nk : s.nk = tri (k + 1)
  nkm1 : s.nkm1 = tri k
  nkm2 : s.nkm2 = tri (k - 1)
  nkm3 : s.nkm3 = tri (k - 2)
  nDiv : s.nDiv = tri (m + 1)
  vInt : Values internal.points (tri (k + 1)) (basisPoly k c h) s.vanderInt
  vIntD : ∀ d : Fin 2, Values internal.points (tri (k + 1)) (fun j => pderiv d (basisPoly k c h j)) (pick s.vanderIntD d)
  vBnd : Values dofs (tri (k + 1)) (basisPoly k c h) s.vanderBnd
  vBndD : ∀ d : Fin 2, Values dofs (tri (k + 1)) (fun j => pderiv d (basisPoly k c h j)) (pick s.vanderBndD d)
  vBndK : Values bnd (tri (k + 2)) (basisPoly (k + 1) c h) s.vanderBndKp1
  gBig : ∀ d : Fin 2, Values internal.points (tri k) (gPoly k c h d) (pick s.gBig d)
  gBig2 : ∀ d : Fin 2, Values internal.points (tri (k - 2)) (gPoly k c h d) (pick s.gBigKm2 d)
  proj : EdgeProjOk k n V dofs bnd s.edgeProj
  pRows : s.HKp1.rows = tri (k + 2)
  pCols : s.HKp1.cols = tri (k + 2)
  pEnt : ∀ i < tri (k + 2), ∀ j < tri (k + 2), s.HKp1.ent i j = quadLin internal.points internal.weights (basisPoly (k + 1) c h i * basisPoly (k + 1) c h j)
  hRows : s.H.rows = tri (k + 1)
  hCols : s.H.cols = tri (k + 1)
  hEnt : ∀ i < tri (k + 1), ∀ j < tri (k + 1), s.H.ent i j = quadLin internal.points internal.weights (basisPoly k c h i * basisPoly k c h j)

theorem Values.take {points : List (ℝ × ℝ)} {N M : Nat} {P : Nat → MvPolynomial (Fin 2) ℝ} {X : DMat ℝ} (hX : Values points N P X) (hM : M ≤ N) :
    Values points M P ⟨X.rows, M, fun i j => X.ent (0 + i) (0 + j)⟩ :=
  ⟨hX.rows, rfl, fun i p hi j hj => by dsimp only; rw [zero_add, zero_add]; exact hX.ent i p hi j (by omega)⟩

theorem dfInit_ok (hE : IsElement poly n V len dir nrm) (hk : 2 ≤ k) (hts : ts.length = k - 1) (hss : ss.length = k) (hd : (0 :: 1 :: ts).Nodup)
    (hin : ∀ t ∈ ts, 0 ≤ t ∧ t ≤ 1) (hsin : ∀ t ∈ ss, 0 ≤ t ∧ t ≤ 1) (hsq : ∀ x, 0 ≤ x → sqrt x * sqrt x = x) (hg : DecOk k g) (internal : Rule (ℝ × ℝ) ℝ)
    (hw : internal.weights.length = internal.points.length) (hpos : ∀ x ∈ internal.weights, 0 ≤ x) (x : Rule (ℝ × ℝ) ℝ) (y z : List ℝ × (ℝ × ℝ)) :
    ∃ s, dfInit2D sqrt ⟨red, k, k - 1, tri (divDegree red k + 1) - 1, tri (k - 2), compute mono2 k, g, x, (ss, y), (ts, z)⟩ poly internal (dfPoints n V dir ss) (dfPoints n V dir ts)
      = .ok s ∧ DfInitOk k (divDegree red k) n V poly.centroid poly.diameter internal (dfPoints n V dir ss) (dfPoints n V dir ts) s := by
  have hn : poly.edges.vertices.length = n := by rw [hE.edges.vertices, List.length_map, List.length_range]
  have hL : (dfPoints n V dir ts).length = n + (k - 1) * n := by rw [dfPoints_length, hts, mul_comm]
  have hnum : (compute mono2 k).num = tri (k + 1) := num2_eq k
  have hnum' : (compute mono2 (k + 1)).num = tri (k + 2) := num2_eq (k + 1)
  have hle : tri (k + 1) ≤ tri (k + 2) := tri_le (by omega)
  have hle2 : tri (k - 2) ≤ tri k := tri_le (by omega)
  obtain ⟨X, hX, hXv, _⟩ := vanderMat_ok (k + 1) poly.centroid poly.diameter internal.points
  obtain ⟨X', hX', hXv', hXe'⟩ := vanderMat_ok k poly.centroid poly.diameter internal.points
  obtain ⟨Y, hY, hYv, hYe⟩ := vanderMat_ok k poly.centroid poly.diameter (dfPoints n V dir ts)
  obtain ⟨Z, hZ, hZv, _⟩ := vanderMat_ok (k + 1) poly.centroid poly.diameter (dfPoints n V dir ss)
  rw [hnum'] at hXv hZv
  rw [hnum] at hXv' hYv
  have hblk : Values internal.points (tri (k + 1)) (basisPoly k poly.centroid poly.diameter) ⟨X.rows, tri (k + 1), fun i j => X.ent (0 + i) (0 + j)⟩ := by
    refine ⟨hXv.rows, rfl, fun i p hi j hj => ?_⟩
    dsimp only
    rw [zero_add, zero_add, hXv.ent i p hi j (by omega), basis_mono (Nat.le_succ k) _ _ hj]
  obtain ⟨DX, hDX, hDXv⟩ := vanderDerMat_ok k poly.centroid poly.diameter internal.points ⟨X.rows, tri (k + 1), fun i j => X.ent (0 + i) (0 + j)⟩ hblk.rows (by
    intro i p hi j hj
    rw [hXe' i p hi j hj, hXv'.ent i p hi j (hnum ▸ hj), hblk.ent i p hi j (hnum ▸ hj)]) 0
  obtain ⟨DY, hDY, hDYv⟩ := vanderDerMat_ok k poly.centroid poly.diameter internal.points ⟨X.rows, tri (k + 1), fun i j => X.ent (0 + i) (0 + j)⟩ hblk.rows (by
    intro i p hi j hj
    rw [hXe' i p hi j hj, hXv'.ent i p hi j (hnum ▸ hj), hblk.ent i p hi j (hnum ▸ hj)]) 1
  obtain ⟨BX, hBX, hBXv⟩ := vanderDerMat_ok k poly.centroid poly.diameter (dfPoints n V dir ts) Y hYv.rows hYe 0
  obtain ⟨BY, hBY, hBYv⟩ := vanderDerMat_ok k poly.centroid poly.diameter (dfPoints n V dir ts) Y hYv.rows hYe 1
  rw [hnum] at hDXv hDYv hBXv hBYv
  obtain ⟨GX, hGX, hGXv⟩ := dfGBig_ok hg (by omega) internal.points hblk 0
  obtain ⟨GY, hGY, hGYv⟩ := dfGBig_ok hg (by omega) internal.points hblk 1
  obtain ⟨M, hM, hMp⟩ := edgeProj_interp (k := k) (by omega) hE (by omega) hss hd hin hsin
  have hsl : (internal.weights.map sqrt).length = internal.points.length := by rw [List.length_map, hw]
  have hsqw : ∀ i, (internal.weights.map sqrt).getD i 0 * (internal.weights.map sqrt).getD i 0 = internal.weights.getD i 0 := by
    intro i
    by_cases hi : i < internal.weights.length
    · have : (internal.weights.map sqrt).getD i 0 = sqrt internal.weights[i] := by simp [List.getD_eq_getElem?_getD, hi]
      rw [this, hsq _ (hpos _ (List.getElem_mem hi))]
      simp [List.getD_eq_getElem?_getD, hi]
    · simp [List.getD_eq_getElem?_getD, hi]
  have c1 : (k + 1) * (k + 2) / 2 = tri (k + 1) := tri_div k
  have c2 : k * (k + 1) / 2 = tri k := tri_div' k
  have c3 : (k - 2) * (k - 1) / 2 = tri (k - 2) := by rw [← tri_div', show k - 2 + 1 = k - 1 by omega]
  have c4 : (k - 1) * k / 2 = tri (k - 1) := by rw [← tri_div', show k - 1 + 1 = k by omega]
  have c5 : (k + 3) * (k + 2) / 2 = tri (k + 2) := by rw [← tri_div' (k + 2), mul_comm]
  simp only [Fin.val_zero, Fin.val_one] at hDX hDY hBX hBY hGX hGY
  unfold dfInit2D
  dsimp only
  rw [hn, hg.mono, hX, except_ok_bind, c1, DMat.block_ok _ _ _ _ _ (by omega) (by rw [hXv.cols]; omega), except_ok_bind, hDX, except_ok_bind, hDY, except_ok_bind,
    hY, except_ok_bind, hBX, except_ok_bind, hBY, except_ok_bind, hZ, except_ok_bind, hGX, except_ok_bind, hGY, except_ok_bind, c3,
    DMat.block_ok _ _ _ _ _ (by omega) (by rw [hGXv.cols]; omega), except_ok_bind, DMat.block_ok _ _ _ _ _ (by omega) (by rw [hGYv.cols]; omega), except_ok_bind,
    hM, except_ok_bind, sqrtArray_ok sqrt _ hpos, except_ok_bind, scaleRows_ok _ _ (by rw [hsl, hXv.rows]), except_ok_bind, DMat.mul_ok _ _ (by rfl), except_ok_bind,
    DMat.block_ok _ _ _ _ _ (by show _ ≤ X.cols; rw [hXv.cols]; omega) (by show _ ≤ X.cols; rw [hXv.cols]; omega), except_ok_bind, c2, c4, c5]
  have hgram : ∀ i < tri (k + 2), ∀ j < tri (k + 2), ∑ l ∈ Finset.range X.rows, (internal.weights.map sqrt).getD l 0 * X.ent l i * ((internal.weights.map sqrt).getD l 0 * X.ent l j)
      = quadLin internal.points internal.weights (basisPoly (k + 1) poly.centroid poly.diameter i * basisPoly (k + 1) poly.centroid poly.diameter j) := by
    intro i hi j hj
    rw [hXv.rows, ← sum_quadLin internal.points internal.weights hw (fun l => X.ent l i * X.ent l j) _ (fun l p hl => by
      rw [hXv.ent l p hl i hi, hXv.ent l p hl j hj]
      simp [ev2])]
    refine Finset.sum_congr rfl fun l _ => ?_
    rw [← hsqw l]
    ring
  refine ⟨_, rfl, ?_⟩
  constructor
  · exact hL.symm
  · dsimp only; rw [hL]
  · rfl
  · rfl
  · dsimp only; rw [hL]; omega
  · rfl
  · rfl
  · rfl
  · rfl
  · rfl
  · dsimp only
    cases red
    · simp only [Bool.false_eq_true, if_false, divDegree]
      rw [show k - 1 + 1 = k by omega]
    · rfl
  · exact hblk
  · intro d
    fin_cases d
    · exact hDXv
    · exact hDYv
  · exact hYv
  · intro d
    fin_cases d
    · exact hBXv
    · exact hBYv
  · exact hZv
  · intro d
    fin_cases d
    · exact hGXv
    · exact hGYv
  · intro d
    fin_cases d
    · exact hGXv.take hle2
    · exact hGYv.take hle2
  · exact hMp
  · exact hXv.cols
  · exact hXv.cols
  · intro i hi j hj
    exact hgram i hi j hj
  · rfl
  · rfl
  · intro i hi j hj
    dsimp only
    rw [zero_add, zero_add]
    refine (hgram i (by omega) j (by omega)).trans ?_
    rw [basis_mono (Nat.le_succ k) _ _ hi, basis_mono (Nat.le_succ k) _ _ hj]

end PolyDiM
