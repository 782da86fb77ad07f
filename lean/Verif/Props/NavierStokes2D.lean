import Verif.Props.AssemblerPcc2D

/-!
# The convective term of the Navier-Stokes equations (C87)
-/

namespace PolyDiM

open Finset Spec

section
variable {K : Type} [Field K]

theorem fold_two {α : Type} (f : α → Nat → Except Fault α) (a : α) : (List.range 2).foldlM f a = (do let b ← f a 0; f b 1) := by
  show (do let b ← f a 0; let c ← f b 1; .ok c) = _
  congr 1
  funext b
  cases f b 1 <;> rfl

theorem nsLhs_ok (Q M : Nat) (w : Nat → K) (u du : Nat → Nat → K) (V D : Nat → Nat → Nat → K) :
    nsConvectiveLhs (vecOf 2 fun d => vecOf Q (u d)) (vecOf 4 fun d => vecOf Q (du d)) (vecOf 2 fun d => ⟨Q, M, V d⟩) (vecOf 4 fun d => ⟨Q, M, D d⟩) (vecOf Q w)
      = .ok ⟨M, M, fun I J => ∑ q ∈ range Q, w q * ∑ a ∈ range 2, ∑ b ∈ range 2, (u b q * (V a q I * D (2 * a + b) q J) + du (2 * a + b) q * (V a q I * V b q J))⟩ := by
  unfold nsConvectiveLhs
  simp only [fold_two, unchecked_vecOf _ (show 0 < 2 by decide), atIdx_vecOf _ (show 0 < 2 by decide), atIdx_vecOf _ (show 1 < 2 by decide), except_ok_bind, Nat.mul_zero, Nat.mul_one,
    Nat.zero_add, Nat.add_zero, atIdx_vecOf _ (show 0 < 4 by decide), atIdx_vecOf _ (show 1 < 4 by decide), atIdx_vecOf _ (show 2 < 4 by decide),
    atIdx_vecOf _ (show 2 + 1 < 4 by decide), cellTerm_ok, DMat.zero, DMat.add_ok, cellTerm_ent]
  congr 2
  funext I J
  simp only [Finset.sum_range_succ _ 1, Finset.sum_range_one, ← Finset.sum_add_distrib, zero_add]
  refine sum_congr rfl fun q _ => ?_
  norm_num
  ring

theorem nsRhs_ok (Q M : Nat) (w : Nat → K) (u du : Nat → Nat → K) (V : Nat → Nat → Nat → K) :
    nsConvectiveRhs (vecOf 2 fun d => vecOf Q (u d)) (vecOf 4 fun d => vecOf Q (du d)) (vecOf 2 fun d => ⟨Q, M, V d⟩) (vecOf Q w)
      = .ok ⟨M, 1, fun I _ => ∑ q ∈ range Q, w q * ∑ a ∈ range 2, ∑ b ∈ range 2, u b q * du (2 * a + b) q * V a q I⟩ := by
  unfold nsConvectiveRhs
  simp only [fold_two, unchecked_vecOf _ (show 0 < 2 by decide), atIdx_vecOf _ (show 0 < 2 by decide), atIdx_vecOf _ (show 1 < 2 by decide), except_ok_bind, Nat.mul_zero, Nat.mul_one,
    Nat.zero_add, Nat.add_zero, atIdx_vecOf _ (show 0 < 4 by decide), atIdx_vecOf _ (show 1 < 4 by decide), atIdx_vecOf _ (show 2 < 4 by decide),
    atIdx_vecOf _ (show 2 + 1 < 4 by decide), cwise_ok, cellForcing_ok, DMat.zero, DMat.add_ok, cellForcing_ent]
  congr 2
  funext I J
  simp only [Finset.sum_range_succ _ 1, Finset.sum_range_one, ← Finset.sum_add_distrib, zero_add]
  refine sum_congr rfl fun q _ => ?_
  norm_num
  ring

/-- Component `a` of the vector functions. -/
def blockFun (Q N : Nat) (S : Nat → Nat → K) (a q J : Nat) : K := if q < Q ∧ a * N ≤ J ∧ J < a * N + N then S q (J - a * N) else 0

theorem blockFun_at {Q N : Nat} (S : Nat → Nat → K) {a c q i : Nat} (hq : q < Q) (hi : i < N) : blockFun Q N S a q (c * N + i) = if a = c then S q i else 0 := by
  unfold blockFun
  by_cases h : a = c
  · subst h
    rw [if_pos ⟨hq, by omega, by omega⟩, if_pos rfl, Nat.add_sub_cancel_left]
  · rw [if_neg h, if_neg]
    rintro ⟨-, h1, h2⟩
    apply h
    have e1 : (c * N + i) / N = c := by
      rw [Nat.add_comm, Nat.add_mul_div_right _ _ (by omega), Nat.div_eq_of_lt hi, Nat.zero_add]
    have e2 : (c * N + i) / N = a := by
      apply Nat.div_eq_of_lt_le
      · exact h1
      · rw [Nat.succ_mul]; exact h2
    exact e2.symm.trans e1

theorem sum_two_blocks (N : Nat) (f : Nat → K) : ∑ J ∈ range (2 * N), f J = ∑ c ∈ range 2, ∑ j ∈ range N, f (c * N + j) := by
  rw [Finset.sum_range_succ, Finset.sum_range_one, two_mul, Finset.sum_range_add]
  simp only [Nat.zero_mul, Nat.zero_add, Nat.one_mul]

theorem blockFun_sum {Q N : Nat} (S : Nat → Nat → K) {a q : Nat} (ha : a < 2) (hq : q < Q) (d : Nat → K) :
    ∑ J ∈ range (2 * N), blockFun Q N S a q J * d J = ∑ j ∈ range N, S q j * d (a * N + j) := by
  rw [sum_two_blocks]
  rw [Finset.sum_eq_single a]
  · refine sum_congr rfl fun j hj => ?_
    rw [blockFun_at S hq (mem_range.1 hj), if_pos rfl]
  · intro c _ hc
    refine sum_eq_zero fun j hj => ?_
    rw [blockFun_at S hq (mem_range.1 hj), if_neg (Ne.symm hc), zero_mul]
  · intro h
    exact absurd (mem_range.2 ha) h

theorem block_assign (Q N : Nat) (S : Nat → Nat → K) {a : Nat} (ha : a < 2) :
    (DMat.zero Q (2 * N)).assign 0 (a * N) Q N ⟨Q, N, S⟩ = .ok ⟨Q, 2 * N, blockFun Q N S a⟩ := by
  have h : a * N + N ≤ 2 * N := by
    rw [← Nat.succ_mul]
    exact Nat.mul_le_mul_right N ha
  unfold DMat.assign
  rw [if_pos ⟨rfl, rfl, by simp [DMat.zero], h⟩]
  congr 2
  funext q J
  unfold blockFun
  simp only [Nat.zero_le, true_and, Nat.zero_add, Nat.sub_zero, DMat.zero]

theorem nsValues_ok (Q N : Nat) (S : Nat → Nat → K) : nsValues ⟨Q, N, S⟩ N = .ok (vecOf 2 fun a => ⟨Q, 2 * N, blockFun Q N S a⟩) := by
  have h0 := block_assign Q N S (show 0 < 2 by decide)
  have h1 := block_assign Q N S (show 1 < 2 by decide)
  rw [Nat.zero_mul] at h0
  rw [Nat.one_mul] at h1
  unfold nsValues
  dsimp only
  rw [h0, except_ok_bind, h1, except_ok_bind]
  rfl

theorem nsDerivatives_ok (Q N : Nat) (SD : Nat → Nat → Nat → K) :
    nsDerivatives [⟨Q, N, SD 0⟩, ⟨Q, N, SD 1⟩] N = .ok (vecOf 4 fun d => ⟨Q, 2 * N, blockFun Q N (SD (d % 2)) (d / 2)⟩) := by
  unfold nsDerivatives
  rw [pair_vecOf fun d => (⟨Q, N, SD d⟩ : DMat K), atIdx_vecOf _ (by decide), except_ok_bind]
  refine mapM_ok _ _ _ fun d hd => ?_
  have h4 := List.mem_range.1 hd
  rw [atIdx_vecOf _ (Nat.mod_lt d (by decide)), except_ok_bind]
  exact block_assign Q N _ (by omega)

theorem nsOn_ok (D Q M : Nat) (B : Nat → Nat → Nat → K) (d : Nat → K) :
    nsOnQuadrature (vecOf D fun a => ⟨Q, M, B a⟩) (vecOf M d) = .ok (vecOf D fun a => vecOf Q fun q => ∑ J ∈ range M, B a q J * (vecOf M d).getD J 0) := by
  unfold nsOnQuadrature
  conv_lhs => arg 2; unfold vecOf
  rw [List.mapM_map]
  refine mapM_ok _ _ _ fun a _ => ?_
  rw [Function.comp_apply, DMat.mul_ok _ _ (by rw [show (DMat.col (vecOf M d)).rows = M from vecOf_length M d]), except_ok_bind]
  rfl

section local_operators
variable {space : Space2D K} {Q N : Nat} {x : Nat → K × K} {w : Nat → K} {S : Nat → Nat → K} {SD : Nat → Nat → Nat → K}

theorem localNS_ok (hD : Tabulated space space Q N N x w S S SD SD) (d : Nat → K) :
    localNS space ((List.range (2 * N)).map d) = .ok
      (⟨2 * N, 2 * N, fun I J => ∑ q ∈ range Q, w q * ∑ a ∈ range 2, ∑ b ∈ range 2,
        ((∑ J ∈ range (2 * N), blockFun Q N S b q J * (vecOf (2 * N) d).getD J 0)
            * (blockFun Q N S a q I * blockFun Q N (SD ((2 * a + b) % 2)) ((2 * a + b) / 2) q J)
          + (∑ J ∈ range (2 * N), blockFun Q N (SD ((2 * a + b) % 2)) ((2 * a + b) / 2) q J * (vecOf (2 * N) d).getD J 0)
            * (blockFun Q N S a q I * blockFun Q N S b q J))⟩,
      ⟨2 * N, 1, fun I _ => ∑ q ∈ range Q, w q * ∑ a ∈ range 2, ∑ b ∈ range 2, (∑ J ∈ range (2 * N), blockFun Q N S b q J * (vecOf (2 * N) d).getD J 0)
        * (∑ J ∈ range (2 * N), blockFun Q N (SD ((2 * a + b) % 2)) ((2 * a + b) / 2) q J * (vecOf (2 * N) d).getD J 0) * blockFun Q N S a q I⟩) := by
  have hw : space.internal.weights = vecOf Q w := hD.weights
  have e1 := nsOn_ok 2 Q (2 * N) (blockFun Q N S) d
  have e2 := nsOn_ok 4 Q (2 * N) (fun d => blockFun Q N (SD (d % 2)) (d / 2)) d
  unfold localNS
  rw [hD.trialValues, except_ok_bind, hD.trialDers, except_ok_bind, hD.trialSize, nsValues_ok, except_ok_bind, nsDerivatives_ok, except_ok_bind,
    show (List.range (2 * N)).map d = vecOf (2 * N) d from rfl, e1, except_ok_bind, e2, except_ok_bind, hw]
  have e3 := nsLhs_ok Q (2 * N) w (fun a q => ∑ J ∈ range (2 * N), blockFun Q N S a q J * (vecOf (2 * N) d).getD J 0)
    (fun a q => ∑ J ∈ range (2 * N), blockFun Q N (SD (a % 2)) (a / 2) q J * (vecOf (2 * N) d).getD J 0) (blockFun Q N S) (fun d => blockFun Q N (SD (d % 2)) (d / 2))
  have e4 := nsRhs_ok Q (2 * N) w (fun a q => ∑ J ∈ range (2 * N), blockFun Q N S a q J * (vecOf (2 * N) d).getD J 0)
    (fun a q => ∑ J ∈ range (2 * N), blockFun Q N (SD (a % 2)) (a / 2) q J * (vecOf (2 * N) d).getD J 0) (blockFun Q N S)
  rw [e3, except_ok_bind, e4, except_ok_bind]

/-- C87: the local operators of the convective term. With `u` the discrete speed and `∇u` its gradient at the quadrature points, entry `a N + i` of the
right-hand side is the quadrature of `φ_i (u · ∇) u_a`, and entry `(a N + i, c N + j)` of the matrix is the quadrature of `φ_i (u · ∇) φ_j`, for `a = c`
only, plus `φ_i ∂_c u_a φ_j`. -/
theorem C87_entries (hD : Tabulated space space Q N N x w S S SD SD) (d : Nat → K) :
    ∃ L r, localNS space ((List.range (2 * N)).map d) = .ok (L, r) ∧ L.rows = 2 * N ∧ L.cols = 2 * N ∧ r.rows = 2 * N ∧ r.cols = 1 ∧
      ∀ U : Nat → Nat → K, (∀ a < 2, ∀ q < Q, U a q = ∑ j ∈ range N, S q j * d (a * N + j)) →
      ∀ G : Nat → Nat → Nat → K, (∀ a < 2, ∀ b < 2, ∀ q < Q, G a b q = ∑ j ∈ range N, SD b q j * d (a * N + j)) →
      ∀ a < 2, ∀ i < N, r.ent (a * N + i) 0 = (∑ q ∈ range Q, w q * (S q i * ∑ b ∈ range 2, U b q * G a b q)) ∧
        ∀ c < 2, ∀ j < N, L.ent (a * N + i) (c * N + j)
          = ∑ q ∈ range Q, w q * (S q i * ((if a = c then ∑ b ∈ range 2, U b q * SD b q j else 0) + G a c q * S q j)) := by
  refine ⟨_, _, localNS_ok hD d, rfl, rfl, rfl, rfl, ?_⟩
  intro U hU G hG a ha i hi
  have hsum : ∀ (T : Nat → Nat → K) (c q : Nat), c < 2 → q < Q →
      ∑ J ∈ range (2 * N), blockFun Q N T c q J * (vecOf (2 * N) d).getD J 0 = ∑ j ∈ range N, T q j * d (c * N + j) := by
    intro T c q hc hq
    rw [← blockFun_sum T hc hq]
    exact sum_congr rfl fun J hJ => by rw [vecOf_getD _ (mem_range.1 hJ)]
  have hu : ∀ c q, c < 2 → q < Q → ∑ J ∈ range (2 * N), blockFun Q N S c q J * (vecOf (2 * N) d).getD J 0 = U c q := by
    intro c q hc hq
    rw [hsum _ _ _ hc hq, hU c hc q hq]
  have hg : ∀ c b q, c < 2 → b < 2 → q < Q → ∑ J ∈ range (2 * N), blockFun Q N (SD ((2 * c + b) % 2)) ((2 * c + b) / 2) q J * (vecOf (2 * N) d).getD J 0 = G c b q := by
    intro c b q hc hb hq
    rw [hsum _ _ _ (by omega) hq, hG c hc b hb q hq, show (2 * c + b) % 2 = b by omega, show (2 * c + b) / 2 = c by omega]
  constructor
  · dsimp only
    refine sum_congr rfl fun q hq => ?_
    have hq' := mem_range.1 hq
    congr 1
    have e : ∀ c < 2, ∀ b < 2, (∑ J ∈ range (2 * N), blockFun Q N S b q J * (vecOf (2 * N) d).getD J 0) *
        (∑ J ∈ range (2 * N), blockFun Q N (SD ((2 * c + b) % 2)) ((2 * c + b) / 2) q J * (vecOf (2 * N) d).getD J 0) * blockFun Q N S c q (a * N + i)
        = if c = a then S q i * (U b q * G a b q) else 0 := by
      intro c hc b hb
      rw [hu b q hb hq', hg c b q hc hb hq', blockFun_at S hq' hi]
      split_ifs with h
      · rw [h]; ring
      · rw [mul_zero]
    rw [sum_congr rfl fun c hc => sum_congr rfl fun b hb => e c (mem_range.1 hc) b (mem_range.1 hb), mul_sum, Finset.sum_comm]
    refine sum_congr rfl fun b _ => ?_
    rw [Finset.sum_ite_eq' (range 2) a, if_pos (mem_range.2 ha)]
  · intro c hc j hj
    dsimp only
    refine sum_congr rfl fun q hq => ?_
    have hq' := mem_range.1 hq
    congr 1
    have e : ∀ a' < 2, ∀ b < 2, (∑ J ∈ range (2 * N), blockFun Q N S b q J * (vecOf (2 * N) d).getD J 0) *
        (blockFun Q N S a' q (a * N + i) * blockFun Q N (SD ((2 * a' + b) % 2)) ((2 * a' + b) / 2) q (c * N + j))
        + (∑ J ∈ range (2 * N), blockFun Q N (SD ((2 * a' + b) % 2)) ((2 * a' + b) / 2) q J * (vecOf (2 * N) d).getD J 0) *
          (blockFun Q N S a' q (a * N + i) * blockFun Q N S b q (c * N + j))
        = if a' = a then S q i * ((if a = c then U b q * SD b q j else 0) + if b = c then G a b q * S q j else 0) else 0 := by
      intro a' ha' b hb
      rw [hu b q hb hq', hg a' b q ha' hb hq', blockFun_at S hq' hi, blockFun_at _ hq' hj, blockFun_at _ hq' hj, show (2 * a' + b) % 2 = b by omega,
        show (2 * a' + b) / 2 = a' by omega]
      by_cases h : a' = a
      · subst h
        split_ifs <;> ring
      · rw [if_neg h, if_neg h]
        ring
    rw [sum_congr rfl fun c hc => sum_congr rfl fun b hb => e c (mem_range.1 hc) b (mem_range.1 hb), Finset.sum_comm]
    simp only [Finset.sum_ite_eq', if_pos (mem_range.2 ha), ← mul_sum, sum_add_distrib, if_pos (mem_range.2 hc)]
    split_ifs <;> simp

/-- C87, the linearisation: the matrix at `u` is the derivative of the right-hand side, without a remainder beyond the quadratic one, and the matrix
applied to the speed at which it was computed is twice the right-hand side. The matrix times a vector is written out as a sum. -/
theorem C87_newton (hD : Tabulated space space Q N N x w S S SD SD) (u δ : Nat → K) :
    ∃ L r L' r' L'' r'', localNS space ((List.range (2 * N)).map u) = .ok (L, r) ∧ localNS space ((List.range (2 * N)).map δ) = .ok (L', r') ∧
      localNS space ((List.range (2 * N)).map fun i => u i + δ i) = .ok (L'', r'') ∧
      ∀ I < 2 * N, r''.ent I 0 = r.ent I 0 + (∑ J ∈ range (2 * N), L.ent I J * δ J) + r'.ent I 0 ∧
        ∑ J ∈ range (2 * N), L.ent I J * u J = 2 * r.ent I 0 := by
  obtain ⟨L, r, h, -, -, -, -, e⟩ := C87_entries hD u
  obtain ⟨L', r', h', -, -, -, -, e'⟩ := C87_entries hD δ
  obtain ⟨L'', r'', h'', -, -, -, -, e''⟩ := C87_entries hD fun i => u i + δ i
  refine ⟨L, r, L', r', L'', r'', h, h', h'', fun I hI => ?_⟩
  have hN : 0 < N := by omega
  obtain ⟨a, ha, i, hi, rfl⟩ : ∃ a, a < 2 ∧ ∃ i, i < N ∧ I = a * N + i :=
    ⟨I / N, by rw [Nat.div_lt_iff_lt_mul hN]; omega, I % N, Nat.mod_lt _ hN, by rw [mul_comm, Nat.div_add_mod]⟩
  set U : (Nat → K) → Nat → Nat → K := fun d a q => ∑ j ∈ range N, S q j * d (a * N + j) with hU
  set G : (Nat → K) → Nat → Nat → Nat → K := fun d a b q => ∑ j ∈ range N, SD b q j * d (a * N + j) with hG
  have f := e (U u) (fun _ _ _ _ => rfl) (G u) (fun _ _ _ _ _ _ => rfl) a ha i hi
  have f' := e' (U δ) (fun _ _ _ _ => rfl) (G δ) (fun _ _ _ _ _ _ => rfl) a ha i hi
  have f'' := e'' (fun a q => U u a q + U δ a q) (fun a _ q _ => by simp only [hU, ← sum_add_distrib, mul_add])
    (fun a b q => G u a b q + G δ a b q) (fun a _ b _ q _ => by simp only [hG, ← sum_add_distrib, mul_add]) a ha i hi
  have hL : ∀ d : Nat → K, ∑ J ∈ range (2 * N), L.ent (a * N + i) J * d J
      = ∑ q ∈ range Q, w q * (S q i * ∑ b ∈ range 2, (U u b q * G d a b q + G u a b q * U d b q)) := by
    intro d
    rw [sum_two_blocks]
    have : ∀ c ∈ range 2, ∑ j ∈ range N, L.ent (a * N + i) (c * N + j) * d (c * N + j)
        = ∑ q ∈ range Q, w q * (S q i * ((if a = c then ∑ b ∈ range 2, U u b q * G d a b q else 0) + G u a c q * U d c q)) := by
      intro c hc
      rw [sum_congr rfl fun j hj => by rw [f.2 c (mem_range.1 hc) j (mem_range.1 hj), sum_mul], sum_comm]
      refine sum_congr rfl fun q _ => ?_
      have t1 : G u a c q * U d c q = ∑ j ∈ range N, G u a c q * (S q j * d (c * N + j)) := by rw [hU, mul_sum]
      have t2 : (if a = c then ∑ b ∈ range 2, U u b q * G d a b q else 0)
          = ∑ j ∈ range N, if a = c then (∑ b ∈ range 2, U u b q * SD b q j) * d (c * N + j) else 0 := by
        split_ifs with h
        · subst h
          simp only [hG, mul_sum, sum_mul]
          rw [sum_comm]
          exact sum_congr rfl fun j _ => sum_congr rfl fun b _ => by ring
        · simp
      rw [t1, t2, ← sum_add_distrib, mul_sum, mul_sum]
      refine sum_congr rfl fun j _ => ?_
      split_ifs <;> ring
    rw [sum_congr rfl this, sum_comm]
    refine sum_congr rfl fun q _ => ?_
    rw [← mul_sum, ← mul_sum, sum_add_distrib, Finset.sum_ite_eq, if_pos (mem_range.2 ha), ← sum_add_distrib]
  rw [hL, hL, f.1, f'.1, f''.1]
  constructor
  · rw [← sum_add_distrib, ← sum_add_distrib]
    refine sum_congr rfl fun q _ => ?_
    rw [← mul_add, ← mul_add, ← mul_add, ← mul_add, ← sum_add_distrib, ← sum_add_distrib]
    congr 2
    exact sum_congr rfl fun b _ => by ring
  · rw [mul_sum]
    refine sum_congr rfl fun q _ => ?_
    have : ∑ b ∈ range 2, (U u b q * G u a b q + G u a b q * U u b q) = 2 * ∑ b ∈ range 2, U u b q * G u a b q := by
      rw [mul_sum]
      exact sum_congr rfl fun b _ => by ring
    rw [this]
    ring

end local_operators

end

-- C87: the linear functions on a triangle
example : Tabulated sampleSpace sampleSpace 3 3 3 sampleX (fun _ => 1 / 6) sampleS sampleS sampleD sampleD := sample_tabulated

end PolyDiM
