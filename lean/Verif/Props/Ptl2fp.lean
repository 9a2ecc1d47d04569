import Verif.Lemmas.Ptl2fp

/-!
# Property C10: petal alignment (`transform/ptl2fp.py`)
-/

namespace Verif.Props
open Verif.Py Verif.Model.Ptl2fp Verif.Lemmas.Ptl2fp Matrix

/-- Euclidean distance in space (specification). -/
noncomputable def dist3 (p q : Fin 3 → ℝ) : ℝ :=
  Real.sqrt ((p 0 - q 0) ^ 2 + (p 1 - q 1) ^ 2 + (p 2 - q 2) ^ 2)

/-- Signed volume spanned by three points seen from a fourth (specification). -/
noncomputable def volume (o a b c : Fin 3 → ℝ) : ℝ :=
  (a 0 - o 0) * ((b 1 - o 1) * (c 2 - o 2) - (b 2 - o 2) * (c 1 - o 1))
  - (a 1 - o 1) * ((b 0 - o 0) * (c 2 - o 2) - (b 2 - o 2) * (c 0 - o 0))
  + (a 2 - o 2) * ((b 0 - o 0) * (c 1 - o 1) - (b 1 - o 1) * (c 0 - o 0))

/-- C10: `ptl2fp` preserves all distances. -/
theorem C10_distances (d : Dict) (petal : Nat) (p q p' q' : Fin 3 → ℝ)
    (hp : ptl2fp d petal p = .ok p') (hq : ptl2fp d petal q = .ok q') :
    dist3 p' q' = dist3 p q := by
  unfold ptl2fp lookup at hp hq
  cases h : d petal with
  | none => rw [h] at hp; cases hp
  | some a =>
    rw [h] at hp hq
    injection hp with hp; injection hq with hq
    have key : (p' - q') ⬝ᵥ (p' - q') = (p - q) ⬝ᵥ (p - q) := by
      have e : p' - q' = a.R.mulVec (p - q) := by
        rw [← hp, ← hq, Matrix.mulVec_sub]; simp
      rw [e]; exact dot_mulVec _ (Rxyz_orth _ _ _) _ _
    unfold dist3
    congr 1
    simp [dotProduct, Fin.sum_univ_three] at key
    nlinarith [key]

/-- C10: `ptl2fp` preserves orientation (signed volumes). -/
theorem C10_orientation (d : Dict) (petal : Nat) (o a b c o' a' b' c' : Fin 3 → ℝ)
    (ho : ptl2fp d petal o = .ok o') (ha : ptl2fp d petal a = .ok a')
    (hb : ptl2fp d petal b = .ok b') (hc : ptl2fp d petal c = .ok c') :
    volume o' a' b' c' = volume o a b c := by
  unfold ptl2fp lookup at *
  cases h : d petal with
  | none => rw [h] at ha; cases ha
  | some al =>
    rw [h] at ha hb hc ho
    injection ha with ha; injection hb with hb; injection hc with hc; injection ho with ho
    have hv : ∀ o a b c : Fin 3 → ℝ,
        volume o a b c = (Matrix.of ![a - o, b - o, c - o]).det := by
      intro o a b c
      rw [Matrix.det_fin_three]; simp [volume]; ring
    rw [hv, hv]
    have e : Matrix.of ![a' - o', b' - o', c' - o'] = Matrix.of ![a - o, b - o, c - o] * al.Rᵀ := by
      have k : ∀ v w v' w' : Fin 3 → ℝ, al.R.mulVec v + al.T = v' → al.R.mulVec w + al.T = w' →
          v' - w' = al.R.mulVec (v - w) := by
        intro v w v' w' h1 h2; rw [← h1, ← h2, Matrix.mulVec_sub]; simp
      rw [k _ _ _ _ ha ho, k _ _ _ _ hb ho, k _ _ _ _ hc ho]
      ext i j
      rw [Matrix.mul_apply]
      fin_cases i <;>
        simp [Matrix.mulVec, dotProduct, Fin.sum_univ_three, Matrix.transpose_apply] <;> ring
    rw [e, Matrix.det_mul, Matrix.det_transpose, show al.R.det = 1 from Rxyz_det _ _ _, mul_one]

/-- C10: `fp2ptl` and `ptl2fp` are inverse to each other, and both raise
`KeyError` for exactly the same petals. -/
theorem C10_inverse (d : Dict) (petal : Nat) (p : Fin 3 → ℝ) :
    (ptl2fp d petal p >>= fp2ptl d petal) = (if (d petal).isSome then .ok p else .error .keyError) ∧
    (fp2ptl d petal p >>= ptl2fp d petal) = (if (d petal).isSome then .ok p else .error .keyError) := by
  cases h : d petal with
  | none => simp [ptl2fp, fp2ptl, lookup, h, bind, Except.bind]
  | some a =>
    have h1 : a.Rᵀ.mulVec (a.R.mulVec p + a.T - a.T) = p := by
      rw [add_sub_cancel_right, Matrix.mulVec_mulVec, show a.Rᵀ * a.R = 1 from Rxyz_orth _ _ _,
        Matrix.one_mulVec]
    have h2 : a.R.mulVec (a.Rᵀ.mulVec (p - a.T)) + a.T = p := by
      rw [Matrix.mulVec_mulVec, show a.R * a.Rᵀ = 1 from Rxyz_orth' _ _ _,
        Matrix.one_mulVec, sub_add_cancel]
    constructor
    · simp only [ptl2fp, fp2ptl, lookup, h, bind, Except.bind, pure, Except.pure, h1]; rfl
    · simp only [ptl2fp, fp2ptl, lookup, h, bind, Except.bind, pure, Except.pure, h2]; rfl

/-- C10: the rotation is the z-y-x composition of the three elementary
rotations: positive gamma turns x towards y, positive beta z towards x, positive
alpha y towards z. -/
theorem C10_rotation_sense (d : Dict) (petal : Nat) (al : Alignment) (h : d petal = some al)
    (p : Fin 3 → ℝ) :
    (al.alpha = 0 → al.beta = 0 → ptl2fp d petal p = .ok
      ![Real.cos al.gamma * p 0 - Real.sin al.gamma * p 1 + al.Tx,
        Real.sin al.gamma * p 0 + Real.cos al.gamma * p 1 + al.Ty, p 2 + al.Tz]) ∧
    (al.alpha = 0 → al.gamma = 0 → ptl2fp d petal p = .ok
      ![Real.cos al.beta * p 0 + Real.sin al.beta * p 2 + al.Tx, p 1 + al.Ty,
        -Real.sin al.beta * p 0 + Real.cos al.beta * p 2 + al.Tz]) ∧
    (al.beta = 0 → al.gamma = 0 → ptl2fp d petal p = .ok
      ![p 0 + al.Tx, Real.cos al.alpha * p 1 - Real.sin al.alpha * p 2 + al.Ty,
        Real.sin al.alpha * p 1 + Real.cos al.alpha * p 2 + al.Tz]) := by
  have z0 : Rx 0 = 1 ∧ Ry 0 = 1 ∧ Rz 0 = 1 := by
    refine ⟨?_, ?_, ?_⟩ <;> ext i j <;> fin_cases i <;> fin_cases j <;> simp [Rx, Ry, Rz]
  refine ⟨fun h1 h2 => ?_, fun h1 h2 => ?_, fun h1 h2 => ?_⟩ <;>
  · simp only [ptl2fp, lookup, h, bind, Except.bind, pure, Except.pure, Alignment.R, Rxyz, h1, h2,
      z0.1, z0.2.1, z0.2.2, Matrix.mul_one, Matrix.one_mul]
    congr 1
    ext i
    fin_cases i <;> simp [Rx, Ry, Rz, Alignment.T, dotProduct, Fin.sum_univ_three] <;> try ring

/-- C10: converting a whole spot table at once gives every spot the transform of
its own petal, in whatever order the petals are visited. -/
theorem C10_table (d : Dict) (petals : List Nat) (spots : List (Nat × (Fin 3 → ℝ)))
    (hall : ∀ s ∈ spots, s.1 ∈ petals) (hkey : ∀ k ∈ petals, (d k).isSome) :
    ∃ out, applyPtl2fp d petals spots = .ok out ∧
      List.Forall₂ (fun s o => ptl2fp d s.1 s.2 = .ok o) spots out := by
  -- loop invariant: spots of petals already visited are done
  have inv : ∀ (todo : List Nat) (out0 : List (Fin 3 → ℝ)) (done : List Nat),
      (∀ k ∈ todo, (d k).isSome) →
      List.Forall₂ (fun s o => s.1 ∈ done → ptl2fp d s.1 s.2 = .ok o) spots out0 →
      ∃ out, todo.foldlM (init := out0) (fun out petal => do
          let a ← lookup d petal
          return List.zipWith (fun (s : Nat × V3) o =>
            if s.1 = petal then a.R.mulVec s.2 + a.T else o) spots out) = Except.ok out ∧
        List.Forall₂ (fun s o => s.1 ∈ done ++ todo → ptl2fp d s.1 s.2 = .ok o) spots out := by
    intro todo
    induction todo with
    | nil =>
      intro out0 done _ hf
      exact ⟨out0, rfl, by simpa using hf⟩
    | cons k todo ih =>
      intro out0 done hk hf
      have hks := hk k (by simp)
      obtain ⟨a, ha⟩ := Option.isSome_iff_exists.1 hks
      have hstep : List.Forall₂ (fun s o => s.1 ∈ done ++ [k] → ptl2fp d s.1 s.2 = .ok o) spots
          (List.zipWith (fun (s : Nat × V3) o =>
            if s.1 = k then a.R.mulVec s.2 + a.T else o) spots out0) := by
        clear ih hk hall
        induction hf with
        | nil => exact List.Forall₂.nil
        | @cons s o ss os hso _ ih2 =>
          refine List.Forall₂.cons ?_ ih2
          intro hm
          dsimp only
          by_cases hsk : s.1 = k
          · rw [if_pos hsk]
            unfold ptl2fp lookup
            rw [hsk, ha]; rfl
          · rw [if_neg hsk]
            apply hso
            simpa [hsk] using hm
      obtain ⟨out, e, hout⟩ := ih _ (done ++ [k]) (fun k' hk' => hk k' (by simp [hk'])) hstep
      refine ⟨out, ?_, by simpa using hout⟩
      rw [List.foldlM_cons]
      simp only [lookup, ha, bind, Except.bind, pure, Except.pure] at e ⊢
      exact e
  obtain ⟨out, e, hf⟩ := inv petals (spots.map (fun _ => (0 : Fin 3 → ℝ))) [] hkey (by
    clear hall inv
    induction spots with
    | nil => exact List.Forall₂.nil
    | cons s ss ih => exact List.Forall₂.cons (by simp) ih)
  refine ⟨out, e, ?_⟩
  have hall' : ∀ s ∈ spots, s.1 ∈ [] ++ petals := by simpa using hall
  clear e inv hall
  induction hf with
  | nil => exact List.Forall₂.nil
  | cons h _ ih =>
    exact List.Forall₂.cons (h (hall' _ (by simp))) (ih (fun s hs => hall' s (by simp [hs])))

example : ∃ d : Dict, (∀ k ∈ [3, 7], (d k).isSome) ∧
    (∀ s ∈ [(3, (0 : Fin 3 → ℝ)), (7, 0), (3, 0)], s.1 ∈ [3, 7]) :=
  ⟨fun _ => some ⟨1, 2, 3, 4, 5, 6⟩, by simp, by simp⟩

end Verif.Props
