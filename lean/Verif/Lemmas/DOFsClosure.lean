import Verif.Lemmas.DOFs

/-! Helper lemmas: filling the closure of a cell. -/

namespace PolyDiM

instance : Inhabited CellDOFs := ⟨⟨[], 0, 0, false, false⟩⟩

/-- The stored cell, or an empty one (helper for the proofs). -/
def cellAt (dims : Nat → DimData) (e : Nat × Nat) : CellDOFs := ((dims e.1).cells[e.2]?).getD default

/-- The references to the DOFs of one entity (helper for the proofs). -/
def block (dims : Nat → DimData) (e : Nat × Nat) : List GDOF :=
  (List.range (cellAt dims e).dofs.length).map fun k => ⟨e.1, e.2, k⟩

def Exists' (dims : Nat → DimData) (e : Nat × Nat) : Prop := e.2 < (dims e.1).cells.length

instance (dims : Nat → DimData) (e : Nat × Nat) : Decidable (Exists' dims e) :=
  inferInstanceAs (Decidable (_ < _))

theorem atIdx_eq (dims : Nat → DimData) (d c : Nat) (h : Exists' dims (d, c)) :
    atIdx (dims d).cells c = .ok (cellAt dims (d, c)) := by
  unfold Exists' at h
  simp [atIdx, cellAt, List.getElem?_eq_getElem h]

theorem atIdx_err (dims : Nat → DimData) (d c : Nat) (h : ¬ Exists' dims (d, c)) :
    atIdx (dims d).cells c = .error .outOfRange := by
  unfold Exists' at h
  simp only [not_lt] at h
  simp [atIdx, List.getElem?_eq_none h]

theorem concatenateLoop_eq (dim cell : Nat) (n : Nat) : ∀ (d : Nat) (pre rest : List GDOF), n ≤ rest.length →
    concatenateLoop dim cell n d (pre ++ rest, pre.length) =
      .ok (pre ++ (List.range' d n).map (fun k => ⟨dim, cell, k⟩) ++ rest.drop n, pre.length + n) := by
  induction n with
  | zero => intro d pre rest _; simp [concatenateLoop]
  | succ n ih =>
    intro d pre rest h
    cases rest with
    | nil => simp at h
    | cons r rest =>
      rw [concatenateLoop, if_pos (by simp)]
      have hset : (pre ++ r :: rest).set pre.length ⟨dim, cell, d⟩ = (pre ++ [⟨dim, cell, d⟩]) ++ rest := by
        simp
      rw [hset]
      have := ih (d + 1) (pre ++ [⟨dim, cell, d⟩]) rest (by simpa using h)
      simp only [List.length_append, List.length_singleton] at this
      rw [this]
      simp [List.range'_succ]
      omega

theorem entityStep_eq (dims : Nat → DimData) (flags : Bool) (d c : Nat) (pre rest : List GDOF)
    (nD nS : Nat) (hI hB : Bool) (hex : Exists' dims (d, c))
    (hlen : (cellAt dims (d, c)).dofs.length ≤ rest.length) :
    entityStep dims flags d ⟨pre ++ rest, pre.length, nD, nS, hI, hB⟩ c =
      .ok ⟨(pre ++ block dims (d, c)) ++ rest.drop (cellAt dims (d, c)).dofs.length,
        (pre ++ block dims (d, c)).length,
        nD + (cellAt dims (d, c)).numDOFs, nS + (cellAt dims (d, c)).numStrongs,
        hI || (flags && (cellAt dims (d, c)).hasInternal), hB || (flags && (cellAt dims (d, c)).hasBoundary)⟩ := by
  rw [entityStep, atIdx_eq dims d c hex]
  simp only [concatenateGlobalDOFs]
  rw [concatenateLoop_eq _ _ _ _ _ _ hlen]
  simp [block, List.range_eq_range']

/-- total size of a list of entities -/
def sizeOf' (dims : Nat → DimData) (es : List (Nat × Nat)) : Nat :=
  (es.map fun e => (cellAt dims e).dofs.length).sum

theorem sizeLoop_eq (dims : Nat → DimData) (d : Nat) (cs : List Nat) :
    sizeLoop dims d cs =
      if ∀ c ∈ cs, Exists' dims (d, c) then .ok (sizeOf' dims (cs.map (Prod.mk d))) else .error .outOfRange := by
  induction cs with
  | nil => simp [sizeLoop, sizeOf']
  | cons c cs ih =>
    rw [sizeLoop]
    by_cases hc : Exists' dims (d, c)
    · rw [atIdx_eq dims d c hc, ih]
      by_cases hcs : ∀ c ∈ cs, Exists' dims (d, c)
      · rw [if_pos hcs, if_pos (by simpa [hc] using hcs)]
        simp [sizeOf']
      · rw [if_neg hcs, if_neg (by simpa [hc] using hcs)]
    · rw [atIdx_err dims d c hc, if_neg (by simp [hc])]

theorem entityLoop_eq (dims : Nat → DimData) (flags : Bool) (d : Nat) (cs : List Nat) :
    ∀ (pre rest : List GDOF) (nD nS : Nat) (hI hB : Bool), (∀ c ∈ cs, Exists' dims (d, c)) →
    sizeOf' dims (cs.map (Prod.mk d)) ≤ rest.length →
    entityLoop dims flags d ⟨pre ++ rest, pre.length, nD, nS, hI, hB⟩ cs =
      .ok ⟨(pre ++ (cs.map (Prod.mk d)).flatMap (block dims)) ++ rest.drop (sizeOf' dims (cs.map (Prod.mk d))),
        (pre ++ (cs.map (Prod.mk d)).flatMap (block dims)).length,
        nD + ((cs.map (Prod.mk d)).map fun e => (cellAt dims e).numDOFs).sum,
        nS + ((cs.map (Prod.mk d)).map fun e => (cellAt dims e).numStrongs).sum,
        hI || (cs.map (Prod.mk d)).any (fun e => flags && (cellAt dims e).hasInternal),
        hB || (cs.map (Prod.mk d)).any (fun e => flags && (cellAt dims e).hasBoundary)⟩ := by
  induction cs with
  | nil => intro pre rest nD nS hI hB _ _; simp [entityLoop, sizeOf']
  | cons c cs ih =>
    intro pre rest nD nS hI hB hex hlen
    have hc := hex c (by simp)
    have hsz : sizeOf' dims ((c :: cs).map (Prod.mk d)) =
        (cellAt dims (d, c)).dofs.length + sizeOf' dims (cs.map (Prod.mk d)) := by simp [sizeOf']
    rw [hsz] at hlen
    rw [entityLoop, entityStep_eq dims flags d c pre rest nD nS hI hB hc (by omega)]
    simp only
    rw [ih _ _ _ _ _ _ (fun x hx => hex x (by simp [hx])) (by simp; omega), hsz]
    simp [List.drop_drop, Nat.add_assoc, Bool.or_assoc]

/-- The stored closure data of a list of entities, flags taken from the entities of dimension `d-1`. -/
def globalOf (dims : Nat → DimData) (d : Nat) (es : List (Nat × Nat)) : CellGlobal :=
  { gdofs := es.flatMap (block dims)
    numDOFs := (es.map fun e => (cellAt dims e).numDOFs).sum
    numStrongs := (es.map fun e => (cellAt dims e).numStrongs).sum
    hasInternal := es.any fun e => (e.1 + 1 == d) && (cellAt dims e).hasInternal
    hasBoundary := es.any fun e => (e.1 + 1 == d) && (cellAt dims e).hasBoundary }

/-- The body of the loop for each dimension (helper for the proofs). -/
def bodyOf (mesh : Mesh) (d : Nat) (dims : Nat → DimData) (c : Nat) : Except Fault CellGlobal :=
  match d with
  | 0 => globalCell0D dims c
  | 1 => globalCell1D mesh dims c
  | 2 => globalCell2D mesh dims c
  | _ => globalCell3D mesh dims c

theorem flatMap_block_length (dims : Nat → DimData) (es : List (Nat × Nat)) :
    (es.flatMap (block dims)).length = sizeOf' dims es := by
  induction es with
  | nil => simp [sizeOf']
  | cons e es ih => simp [sizeOf', block, ih] at *

theorem entityLoop_init (dims : Nat → DimData) (flags : Bool) (d n : Nat) (cs : List Nat)
    (h : ∀ c ∈ cs, Exists' dims (d, c)) (hn : sizeOf' dims (cs.map (Prod.mk d)) ≤ n) :
    entityLoop dims flags d (initAcc n) cs =
      .ok ⟨((cs.map (Prod.mk d)).flatMap (block dims)) ++
          List.replicate (n - sizeOf' dims (cs.map (Prod.mk d))) ⟨0, 0, 0⟩,
        ((cs.map (Prod.mk d)).flatMap (block dims)).length,
        ((cs.map (Prod.mk d)).map fun e => (cellAt dims e).numDOFs).sum,
        ((cs.map (Prod.mk d)).map fun e => (cellAt dims e).numStrongs).sum,
        (cs.map (Prod.mk d)).any (fun e => flags && (cellAt dims e).hasInternal),
        (cs.map (Prod.mk d)).any (fun e => flags && (cellAt dims e).hasBoundary)⟩ := by
  have := entityLoop_eq dims flags d cs [] (List.replicate n ⟨0, 0, 0⟩) 0 0 false false h (by simpa using hn)
  simpa [initAcc] using this

theorem sizeOf'_append (dims : Nat → DimData) (a b : List (Nat × Nat)) :
    sizeOf' dims (a ++ b) = sizeOf' dims a + sizeOf' dims b := by simp [sizeOf']

theorem globalCell0D_eq (dims : Nat → DimData) (c : Nat) :
    globalCell0D dims c = if Exists' dims (0, c) then .ok (globalOf dims 0 [(0, c)]) else .error .outOfRange := by
  rw [globalCell0D, sizeLoop_eq]
  by_cases h : Exists' dims (0, c)
  · rw [if_pos h, if_pos (by simpa using h)]
    simp only [bind, Except.bind]
    rw [entityLoop_init _ _ _ _ _ (by simpa using h) (le_refl _)]
    simp [pure, Except.pure, CellAcc.toGlobal, globalOf]
  · rw [if_neg h, if_neg (by simpa using h)]; rfl

theorem sizeLoop_ok (dims : Nat → DimData) (d : Nat) (cs : List Nat) (h : ∀ c ∈ cs, Exists' dims (d, c)) :
    sizeLoop dims d cs = .ok (sizeOf' dims (cs.map (Prod.mk d))) := by rw [sizeLoop_eq, if_pos h]

theorem sizeLoop_err (dims : Nat → DimData) (d : Nat) (cs : List Nat) (h : ¬ ∀ c ∈ cs, Exists' dims (d, c)) :
    sizeLoop dims d cs = .error .outOfRange := by rw [sizeLoop_eq, if_neg h]

theorem bodyOf_eq (mesh : Mesh) (d : Nat) (hd : d < 4) (dims : Nat → DimData) (c : Nat) :
    bodyOf mesh d dims c =
      if ∀ e ∈ Spec.closure mesh d c, Exists' dims e then .ok (globalOf dims d (Spec.closure mesh d c))
      else .error .outOfRange := by
  match d, hd with
  | 0, _ => simp [bodyOf, Spec.closure, globalCell0D_eq]
  | 1, _ =>
    simp only [bodyOf, Spec.closure, globalCell1D]
    by_cases h0 : ∀ v ∈ [(mesh.cell1DVertices c).1, (mesh.cell1DVertices c).2], Exists' dims (0, v)
    · by_cases h1 : ∀ v ∈ [c], Exists' dims (1, v)
      · rw [sizeLoop_ok _ _ _ h0, sizeLoop_ok _ _ _ h1, if_pos (by simp at h0 h1; simp [h0, h1])]
        simp only [bind, Except.bind]
        rw [entityLoop_init _ _ _ _ _ h0 (by omega)]
        simp only
        rw [entityLoop_eq _ _ _ _ _ _ _ _ _ _ h1 (by simp)]
        simp only [pure, Except.pure, CellAcc.toGlobal, globalOf]
        simp [Nat.add_assoc]
      · rw [sizeLoop_ok _ _ _ h0, sizeLoop_err _ _ _ h1, if_neg (by simp at h1; simp [h1])]; rfl
    · rw [sizeLoop_err _ _ _ h0, if_neg (by simp at h0; simp; tauto)]; rfl
  | 2, _ =>
    simp only [bodyOf, Spec.closure, globalCell2D]
    by_cases h2 : ∀ v ∈ [c], Exists' dims (2, v)
    · by_cases h0 : ∀ v ∈ mesh.cell2DVertices c, Exists' dims (0, v)
      · by_cases h1 : ∀ v ∈ mesh.cell2DEdges c, Exists' dims (1, v)
        · rw [sizeLoop_ok _ _ _ h2, sizeLoop_ok _ _ _ h0, sizeLoop_ok _ _ _ h1,
            if_pos (by simp only [List.mem_append, List.mem_map, List.mem_singleton]
                       rintro e ((⟨v, hv, rfl⟩ | ⟨v, hv, rfl⟩) | rfl) <;>
                         first | exact h0 v hv | exact h1 v hv | exact h2 c (by simp))]
          simp only [bind, Except.bind]
          rw [entityLoop_init _ _ _ _ _ h0 (by omega)]
          simp only
          rw [entityLoop_eq _ _ _ _ _ _ _ _ _ _ h1 (by simp; omega)]
          simp only
          rw [entityLoop_eq _ _ _ _ _ _ _ _ _ _ h2 (by simp; omega)]
          simp only [pure, Except.pure, CellAcc.toGlobal, globalOf]
          simp [Nat.add_assoc, Function.comp_def]
          omega
        · rw [sizeLoop_ok _ _ _ h2, sizeLoop_ok _ _ _ h0, sizeLoop_err _ _ _ h1,
            if_neg (fun h => h1 (fun v hv => h (1, v) (by simp [hv])))]; rfl
      · rw [sizeLoop_ok _ _ _ h2, sizeLoop_err _ _ _ h0,
            if_neg (fun h => h0 (fun v hv => h (0, v) (by simp [hv])))]; rfl
    · rw [sizeLoop_err _ _ _ h2,
        if_neg (fun h => h2 (fun v hv => h (2, v) (by simp only [List.mem_singleton] at hv; simp [hv])))]; rfl
  | 3, _ =>
    simp only [bodyOf, Spec.closure, globalCell3D]
    by_cases h3 : ∀ v ∈ [c], Exists' dims (3, v)
    · by_cases h0 : ∀ v ∈ mesh.cell3DVertices c, Exists' dims (0, v)
      · by_cases h1 : ∀ v ∈ mesh.cell3DEdges c, Exists' dims (1, v)
        · by_cases h2 : ∀ v ∈ mesh.cell3DFaces c, Exists' dims (2, v)
          · rw [sizeLoop_ok _ _ _ h3, sizeLoop_ok _ _ _ h0, sizeLoop_ok _ _ _ h1, sizeLoop_ok _ _ _ h2,
              if_pos (by simp only [List.mem_append, List.mem_map, List.mem_singleton]
                         rintro e (((⟨v, hv, rfl⟩ | ⟨v, hv, rfl⟩) | ⟨v, hv, rfl⟩) | rfl) <;>
                         first | exact h0 v hv | exact h1 v hv | exact h2 v hv | exact h3 c (by simp))]
            simp only [bind, Except.bind]
            rw [entityLoop_init _ _ _ _ _ h0 (by omega)]
            simp only
            rw [entityLoop_eq _ _ _ _ _ _ _ _ _ _ h1 (by simp; omega)]
            simp only
            rw [entityLoop_eq _ _ _ _ _ _ _ _ _ _ h2 (by simp; omega)]
            simp only
            rw [entityLoop_eq _ _ _ _ _ _ _ _ _ _ h3 (by simp; omega)]
            simp only [pure, Except.pure, CellAcc.toGlobal, globalOf]
            simp [Nat.add_assoc, Function.comp_def]
            exact ⟨by omega, by rw [Bool.or_assoc], by rw [Bool.or_assoc]⟩
          · rw [sizeLoop_ok _ _ _ h3, sizeLoop_ok _ _ _ h0, sizeLoop_ok _ _ _ h1, sizeLoop_err _ _ _ h2,
              if_neg (fun h => h2 (fun v hv => h (2, v) (by simp [hv])))]; rfl
        · rw [sizeLoop_ok _ _ _ h3, sizeLoop_ok _ _ _ h0, sizeLoop_err _ _ _ h1,
            if_neg (fun h => h1 (fun v hv => h (1, v) (by simp [hv])))]; rfl
      · rw [sizeLoop_ok _ _ _ h3, sizeLoop_err _ _ _ h0,
            if_neg (fun h => h0 (fun v hv => h (0, v) (by simp [hv])))]; rfl
    · rw [sizeLoop_err _ _ _ h3,
        if_neg (fun h => h3 (fun v hv => h (3, v) (by simp only [List.mem_singleton] at hv; simp [hv])))]; rfl

end PolyDiM
