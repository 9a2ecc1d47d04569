import Verif.Props.RayPath

/-!
# C94: turning the telescope, and the coordinate breaks of the dispersion corrector

Turning all surfaces and the incoming ray turns the result.  The coordinate breaks around a
corrector element have the effect of turning the element.
-/

namespace Verif.Props.RayTurn

open Verif.Py Verif.RayTrace
open Verif.Props.RayFrames

/-! ## Specification -/

/-- A ray turned about the origin of the lab. -/
def turn (Q : M3) (r : Ray) : Ray := ⟨Q.mul r.pos, Q.mul r.dir⟩

/-- The row of a ray turned in the lab; in the frame of its surface it is the same. -/
def turnHit (Q : M3) (h : Hit) : Hit := ⟨turn Q h.lab, h.loc⟩

/-- `S'` is the surface `S` (without spider) turned about the origin of the lab by `Q`. -/
structure Turned (Q : M3) (S S' : Surf) : Prop where
  same : S' = { S with vertex := S'.vertex, tilt := S'.tilt, pitch := S'.pitch, roll := S'.roll }
  frame : mat S'.E = mat Q * mat S.E
  place : S'.vertex = Q.mul S.vertex
  nospider : S.legs < 1 ∨ S.legWidth ≤ 0

/-- The lab ray after all surfaces, if the ray gets through. -/
noncomputable def final (refr : PyStr → Except PyErr ℝ) (surfs : List Surf) (start : Hit) :
    Except PyErr (Option Ray) :=
  match runOneRay refr surfs start with
  | .error e => .error e
  | .ok (howfar, rows) =>
    .ok (if howfar = surfs.length then some (rows.getLastD start).lab else none)

/-! ## The surface alone does not know where it is -/

theorem mat_inj (A B : M3) (h : mat A = mat B) : A = B := by
  have e : ∀ i j, mat A i j = mat B i j := fun i j => by rw [h]
  have h00 := e 0 0
  have h01 := e 0 1
  have h02 := e 0 2
  have h10 := e 1 0
  have h11 := e 1 1
  have h12 := e 1 2
  have h20 := e 2 0
  have h21 := e 2 1
  have h22 := e 2 2
  simp [mat] at h00 h01 h02 h10 h11 h12 h20 h21 h22
  ext <;> assumption

theorem mat_mul (E : M3) (a : V3) : (mat E).mulVec ![a.x, a.y, a.z] =
    ![(E.mul a).x, (E.mul a).y, (E.mul a).z] := by
  ext i
  fin_cases i <;> simp [mat, M3.mul, Matrix.mulVec, dotProduct, Fin.sum_univ_three] <;> ring

theorem vec_inj (a b : V3) (h : ![a.x, a.y, a.z] = ![b.x, b.y, b.z]) : a = b := by
  have h0 := congrFun h 0
  have h1 := congrFun h 1
  have h2 := congrFun h 2
  simp at h0 h1 h2
  exact V3.ext h0 h1 h2

theorem mul_comp (Q E F : M3) (h : mat F = mat Q * mat E) (a : V3) : F.mul a = Q.mul (E.mul a) := by
  apply vec_inj
  rw [← mat_mul, ← mat_mul Q, ← mat_mul E, h, Matrix.mulVec_mulVec]

theorem intercept_same (S : Surf) (v : V3) (t p o : ℝ) (r : Ray) :
    intercept { S with vertex := v, tilt := t, pitch := p, roll := o } r = intercept S r := by
  have hc : ∀ q, conicIntercept { S with vertex := v, tilt := t, pitch := p, roll := o } q
      = conicIntercept S q := fun q => rfl
  have hf : ∀ q d, func { S with vertex := v, tilt := t, pitch := p, roll := o } q d
      = func S q d := fun q d => rfl
  have hd : ∀ q d, deriv { S with vertex := v, tilt := t, pitch := p, roll := o } q d
      = deriv S q d := fun q d => rfl
  have hn : ∀ n q d, newton { S with vertex := v, tilt := t, pitch := p, roll := o } q n d
      = newton S q n d := by
    intro n
    induction n with
    | zero => intro q d; unfold newton; simp only [hf, hd]
    | succ n ih => intro q d; unfold newton; simp only [hf, hd, ih]
  unfold intercept higherIntercept
  simp only [hc, hn]

theorem validate_same (S : Surf) (v : V3) (t p o : ℝ) (q : V3) (h : S.legs < 1 ∨ S.legWidth ≤ 0) :
    validate { S with vertex := v, tilt := t, pitch := p, roll := o } q = validate S q := by
  have h' : S.legs < 1 ∨ 0.5 * S.legWidth ≤ 0 := by
    rcases h with h | h
    · exact Or.inl h
    · right; linarith
  unfold validate
  simp only [h', if_true]

theorem redirect_same (refr : PyStr → Except PyErr ℝ) (S : Surf) (v : V3) (t p o : ℝ)
    (next next' : Option Surf) (hn : next.map Surf.glass = next'.map Surf.glass) (r : Ray) :
    redirect refr { S with vertex := v, tilt := t, pitch := p, roll := o } next' r
      = redirect refr S next r := by
  have hg : ∀ q, getNormal { S with vertex := v, tilt := t, pitch := p, roll := o } q
      = getNormal S q := fun q => rfl
  unfold redirect
  cases next with
  | none =>
    cases next' with
    | none => rfl
    | some T => cases hn
  | some T =>
    cases next' with
    | none => cases hn
    | some T' =>
      have : T.glass = T'.glass := Option.some.inj hn
      simp only [hg, this]

theorem labtovx_turn (Q : M3) (S S' : Surf) (h : Turned Q S S') (r : Ray) :
    labtovx S' (turn Q r) = labtovx S r := by
  have hm := fun a => mul_comp Q S.E S'.E h.frame a
  have key : ∀ a, S'.E.tmul (Q.mul a) = S.E.tmul a := by
    intro a
    have : Q.mul a = S'.E.mul (S.E.tmul a) := by rw [hm, mul_tmul _ (rotE S)]
    rw [this, tmul_mul _ (rotE S')]
  unfold labtovx turn
  dsimp only
  rw [key]
  congr 1
  rw [← key]
  congr 1
  rw [h.place]
  unfold M3.mul
  ext <;> dsimp only <;> ring

theorem vxtolab_turn (Q : M3) (S S' : Surf) (h : Turned Q S S') (r : Ray) :
    vxtolab S' r = turn Q (vxtolab S r) := by
  have hm := fun a => mul_comp Q S.E S'.E h.frame a
  unfold vxtolab turn
  dsimp only
  rw [hm, hm, h.place]
  congr 1
  unfold M3.mul
  ext <;> dsimp only <;> ring

/-- One surface, turned. -/
theorem pass_turn (refr : PyStr → Except PyErr ℝ) (Q : M3) (S S' : Surf)
    (h : Turned Q S S') (next next' : Option Surf)
    (hn : next.map Surf.glass = next'.map Surf.glass) (prev : Hit) :
    passOne refr S' next' (turnHit Q prev) =
      (passOne refr S next prev).map (fun ch => (ch.1, turnHit Q ch.2)) := by
  have hact : S'.action = S.action := by rw [h.same]
  have hi : ∀ r, intercept S' r = intercept S r := by
    intro r; rw [h.same]; exact intercept_same _ _ _ _ _ _
  have hv : ∀ r, validate S' r = validate S r := by
    intro r; rw [h.same]; exact validate_same _ _ _ _ _ _ h.nospider
  have hr : ∀ r, redirect refr S' next' r = redirect refr S next r := by
    intro r; rw [h.same]; exact redirect_same _ _ _ _ _ _ _ _ hn _
  have hlab : (turnHit Q prev).lab = turn Q prev.lab := rfl
  unfold passOne
  rw [hact]
  split_ifs with ha
  · simp only [Except.map]
    rw [vxtolab_turn Q S S' h]
    rfl
  · rw [hlab, labtovx_turn Q S S' h, hi]
    cases intercept S (labtovx S prev.lab) with
    | error e => rfl
    | ok cr =>
      obtain ⟨c, r⟩ := cr
      cases c with
      | OK =>
        dsimp only
        rw [hv]
        cases validate S r.pos with
        | OK =>
          dsimp only
          rw [hr]
          cases redirect refr S next r with
          | error e => rfl
          | ok cr' =>
            simp only [Except.map]
            rw [vxtolab_turn Q S S' h]
            rfl
        | _ => simp only [Except.map]; rw [vxtolab_turn Q S S' h]; rfl
      | _ => simp only [Except.map]; rw [vxtolab_turn Q S S' h]; rfl

/-- **C94** (turned telescope). If every surface (none has a spider) and the incoming ray are
turned by the same rotation, the ray gets as far as before and its rows are the same rows
turned. -/
theorem C94_turn (refr : PyStr → Except PyErr ℝ) (Q : M3)
    (surfs surfs' : List Surf) (h : List.Forall₂ (Turned Q) surfs surfs') (start : Hit) :
    runFrom refr surfs' (turnHit Q start) =
      (runFrom refr surfs start).map (fun rows => rows.map (turnHit Q)) := by
  induction h generalizing start with
  | nil => rfl
  | @cons S S' l l' hS hl ih =>
    have hn : l.head?.map Surf.glass = l'.head?.map Surf.glass := by
      cases hl with
      | nil => rfl
      | @cons T T' _ _ hT _ =>
        simp only [List.head?_cons, Option.map_some]
        rw [hT.same]
    unfold runFrom
    rw [pass_turn refr Q S S' hS _ _ hn]
    cases passOne refr S l.head? start with
    | error e => rfl
    | ok ch =>
      obtain ⟨c, q⟩ := ch
      cases c with
      | OK =>
        simp only [Except.map]
        rw [ih]
        cases runFrom refr l q with
        | error e => rfl
        | ok t => rfl
      | _ => rfl

/-- **C94** (every turn). Every list of surfaces without spiders can be turned by every
rotation: the angles exist. -/
theorem C94_turn_exists (Q : M3) (hQ : mat Q ∈ Matrix.specialOrthogonalGroup (Fin 3) ℝ)
    (surfs : List Surf) (h : ∀ S ∈ surfs, S.legs < 1 ∨ S.legWidth ≤ 0) :
    ∃ surfs', List.Forall₂ (Turned Q) surfs surfs' := by
  induction surfs with
  | nil => exact ⟨[], .nil⟩
  | cons S l ih =>
    obtain ⟨l', hl'⟩ := ih (fun T hT => h T (List.mem_cons_of_mem _ hT))
    obtain ⟨t, p, o, he⟩ := C91_every_rotation (mat Q * mat S.E) (mul_mem hQ (C91_rotation _ _ _))
    refine ⟨{ S with vertex := Q.mul S.vertex, tilt := t, pitch := p, roll := o } :: l', .cons ?_ hl'⟩
    exact ⟨rfl, he, rfl, h S List.mem_cons_self⟩

/-! ## Rolling a surface about its own axis -/

/-- Rotation about the z axis, in degrees. -/
noncomputable def Z (a : ℝ) : M3 := euler 0 0 a

theorem mat_Z (a : ℝ) : mat (Z a) = rotZ (radians a) := by
  unfold Z
  rw [C91_angles]
  have h0 : radians 0 = 0 := by unfold radians; ring
  rw [h0]
  unfold rotX rotY rotZ
  ext i j
  fin_cases i <;> fin_cases j <;> simp [Matrix.mul_apply, Fin.sum_univ_three]

theorem rotZ_add (a b : ℝ) : rotZ a * rotZ b = rotZ (a + b) := by
  unfold rotZ
  ext i j
  fin_cases i <;> fin_cases j <;>
    simp [Matrix.mul_apply, Fin.sum_univ_three, Real.cos_add, Real.sin_add] <;> ring

theorem Z_comp (a b : ℝ) : mat (Z (a + b)) = mat (Z a) * mat (Z b) := by
  rw [mat_Z, mat_Z, mat_Z, rotZ_add]
  congr 1
  unfold radians; ring

theorem Z_rot (a : ℝ) : Rotation (Z a) :=
  rotation_of_mem _ (Matrix.mem_specialOrthogonalGroup_iff.1 (C91_rotation _ _ _)).1

theorem Z_so (a : ℝ) : mat (Z a) ∈ Matrix.specialOrthogonalGroup (Fin 3) ℝ := C91_rotation _ _ _

theorem Z_zero (v : V3) : (Z 0).mul v = v := by
  unfold Z
  rw [RayPath.euler_zero]
  unfold M3.mul
  ext <;> dsimp only <;> ring

theorem Z_mul (a : ℝ) (v : V3) : (Z a).mul v =
    ⟨v.x * Real.cos (radians a) - v.y * Real.sin (radians a),
     v.x * Real.sin (radians a) + v.y * Real.cos (radians a), v.z⟩ := by
  have h0 : radians 0 = 0 := by unfold radians; ring
  unfold Z euler M3.mul
  dsimp only
  rw [h0, Real.cos_zero, Real.sin_zero]
  ext <;> dsimp only <;> ring

theorem Z_r2 (a : ℝ) (v : V3) :
    ((Z a).mul v).x * ((Z a).mul v).x + ((Z a).mul v).y * ((Z a).mul v).y = v.x * v.x + v.y * v.y := by
  rw [Z_mul]
  dsimp only
  linear_combination (v.x * v.x + v.y * v.y) * Real.sin_sq_add_cos_sq (radians a)

theorem Z_z (a : ℝ) (v : V3) : ((Z a).mul v).z = v.z := by rw [Z_mul]

theorem Z_dot2 (a : ℝ) (v w : V3) :
    ((Z a).mul v).x * ((Z a).mul w).x + ((Z a).mul v).y * ((Z a).mul w).y = v.x * w.x + v.y * w.y := by
  rw [Z_mul, Z_mul]
  dsimp only
  linear_combination (v.x * w.x + v.y * w.y) * Real.sin_sq_add_cos_sq (radians a)

theorem turn_along (Q : M3) (r : Ray) (d : ℝ) : along (turn Q r) d = Q.mul (along r d) := by
  unfold along turn M3.mul
  ext <;> dsimp only <;> ring

theorem conic_spin (S : Surf) (a : ℝ) (r : Ray) :
    conicIntercept S (turn (Z a) r) =
      ((conicIntercept S r).1, turn (Z a) (conicIntercept S r).2) := by
  have hp : (turn (Z a) r).pos = (Z a).mul r.pos := rfl
  have hd : (turn (Z a) r).dir = (Z a).mul r.dir := rfl
  have e1 := Z_r2 a r.pos
  have e2 := Z_r2 a r.dir
  have e3 := Z_dot2 a r.pos r.dir
  unfold conicIntercept
  simp only [hp, hd, e1, e2, e3, Z_z]
  split_ifs <;> simp only [turn_along] <;> rfl

theorem func_spin (S : Surf) (a : ℝ) (r : Ray) (d : ℝ) : func S (turn (Z a) r) d = func S r d := by
  have e := Z_r2 a (along r d)
  unfold func zConic zPoly
  simp only [turn_along, e]
  have hz : (turn (Z a) r).pos.z = r.pos.z := Z_z a r.pos
  have hw : (turn (Z a) r).dir.z = r.dir.z := Z_z a r.dir
  rw [hz, hw]

theorem newton_spin (S : Surf) (a : ℝ) (r : Ray) : ∀ (n : ℕ) (d : ℝ),
    newton S (turn (Z a) r) n d = newton S r n d := by
  have hd : ∀ d, RayTrace.deriv S (turn (Z a) r) d = RayTrace.deriv S r d := by
    intro d; unfold RayTrace.deriv; simp only [func_spin]
  intro n
  induction n with
  | zero => intro d; unfold newton; simp only [func_spin, hd]
  | succ n ih => intro d; unfold newton; simp only [func_spin, hd, ih]

theorem intercept_spin (S : Surf) (a : ℝ) (r : Ray) :
    intercept S (turn (Z a) r) =
      (intercept S r).map (fun cr => (cr.1, turn (Z a) cr.2)) := by
  unfold intercept
  split_ifs with hp
  · unfold higherIntercept
    rw [conic_spin]
    cases hc : conicIntercept S r with
    | mk c q =>
      cases c with
      | OK =>
        dsimp only
        rw [newton_spin]
        cases newton S q 8 0 with
        | error e => rfl
        | ok o =>
          cases o with
          | none => rfl
          | some d => simp only [Except.map, turn_along]; rfl
      | _ => rfl
  · rw [conic_spin]; rfl

theorem validate_spin (S : Surf) (a : ℝ) (p : V3) (h : S.legs < 1 ∨ S.legWidth ≤ 0) :
    validate S ((Z a).mul p) = validate S p := by
  have h' : S.legs < 1 ∨ 0.5 * S.legWidth ≤ 0 := by
    rcases h with h | h
    · exact Or.inl h
    · right; linarith
  unfold validate
  simp only [h', if_true, Z_r2]

theorem normal_spin (S : Surf) (a : ℝ) (p : V3) :
    getNormal S ((Z a).mul p) = (Z a).mul (getNormal S p) := by
  have e := Z_r2 a p
  set X := ((Z a).mul p).x with hX
  set Y := ((Z a).mul p).y with hY
  set C := Real.cos (radians a)
  set s := Real.sin (radians a)
  have hcs : s ^ 2 + C ^ 2 = 1 := Real.sin_sq_add_cos_sq (radians a)
  have hx : X = p.x * C - p.y * s := by rw [hX, Z_mul]
  have hy : Y = p.x * s + p.y * C := by rw [hY, Z_mul]
  have hgc : (gradConic S X Y).1 = (gradConic S p.x p.y).1 * C - (gradConic S p.x p.y).2 * s ∧
      (gradConic S X Y).2 = (gradConic S p.x p.y).1 * s + (gradConic S p.x p.y).2 * C := by
    unfold gradConic
    dsimp only
    rw [e]
    split_ifs with h1 h2
    · simp
    · simp
    · dsimp only
      rw [hx, hy]
      constructor <;> ring
  have hgp : (gradPoly S X Y).1 = (gradPoly S p.x p.y).1 * C - (gradPoly S p.x p.y).2 * s ∧
      (gradPoly S X Y).2 = (gradPoly S p.x p.y).1 * s + (gradPoly S p.x p.y).2 * C := by
    unfold gradPoly
    dsimp only
    rw [e]
    split_ifs with h1
    · simp
    · dsimp only
      rw [hx, hy]
      constructor <;> ring
  have hg : (gradTotal S X Y).1 = (gradTotal S p.x p.y).1 * C - (gradTotal S p.x p.y).2 * s ∧
      (gradTotal S X Y).2 = (gradTotal S p.x p.y).1 * s + (gradTotal S p.x p.y).2 * C := by
    unfold gradTotal
    dsimp only
    split_ifs with h1
    · dsimp only
      rw [hgc.1, hgc.2, hgp.1, hgp.2]
      constructor <;> ring
    · exact hgc
  unfold getNormal
  dsimp only
  rw [← hX, ← hY, hg.1, hg.2]
  generalize (gradTotal S p.x p.y).1 = gx
  generalize (gradTotal S p.x p.y).2 = gy
  unfold RayTrace.normalize
  dsimp only
  have hl : (-(gx * C - gy * s)) ^ 2 + (-(gx * s + gy * C)) ^ 2 + (1 : ℝ) ^ 2
      = (-gx) ^ 2 + (-gy) ^ 2 + 1 ^ 2 := by
    linear_combination (gx ^ 2 + gy ^ 2) * hcs
  rw [hl]
  split_ifs with h0
  · rw [Z_mul]; ext <;> dsimp only <;> ring
  · rw [Z_mul]; ext <;> dsimp only <;> ring

theorem smul_mul (Q : M3) (t : ℝ) (a : V3) : Q.mul (smul t a) = smul t (Q.mul a) := by
  unfold M3.mul smul
  ext <;> dsimp only <;> ring

theorem add_mul (Q : M3) (a b : V3) : Q.mul (add a b) = add (Q.mul a) (Q.mul b) := by
  unfold M3.mul add
  ext <;> dsimp only <;> ring

theorem reflect_turn (Q : M3) (hQ : Rotation Q) (n k : V3) :
    reflect (Q.mul n) (Q.mul k) = Q.mul (reflect n k) := by
  have h : ∀ n k, reflect n k = add k (smul (-2 * dot k n) n) := by
    intro n k; unfold reflect add smul dot; ext <;> dsimp only <;> ring
  rw [h, h, dot_mul Q hQ, add_mul, smul_mul]

theorem refract_turn (Q : M3) (hQ : mat Q ∈ Matrix.specialOrthogonalGroup (Fin 3) ℝ) (mu : ℝ)
    (n k : V3) : refract mu (Q.mul n) (Q.mul k) = (refract mu n k).map Q.mul := by
  have hR : Rotation Q := rotation_of_mem _ (Matrix.mem_specialOrthogonalGroup_iff.1 hQ).1
  unfold refract
  dsimp only
  rw [cross_mul Q hQ, cross_mul Q hQ, ← smul_mul, dot_mul Q hR, dot_mul Q hR, ← smul_mul, ← add_mul]
  split_ifs <;> rfl

theorem redirect_spin (refr : PyStr → Except PyErr ℝ) (S : Surf) (next : Option Surf) (a : ℝ)
    (r : Ray) : redirect refr S next (turn (Z a) r) =
      (redirect refr S next r).map (fun cr => (cr.1, turn (Z a) cr.2)) := by
  have hp : (turn (Z a) r).pos = (Z a).mul r.pos := rfl
  have hd : (turn (Z a) r).dir = (Z a).mul r.dir := rfl
  unfold redirect
  cases next with
  | none => rfl
  | some T =>
    dsimp only
    rw [hp, hd, normal_spin, reflect_turn _ (Z_rot a)]
    split_ifs with h3 h1 h0 h2 h45
    · rfl
    · rfl
    · cases refr S.glass with
      | error e => rfl
      | ok n1 =>
        cases refr T.glass with
        | error e => rfl
        | ok n2 =>
          dsimp only
          rw [refract_turn _ (Z_so a)]
          cases refract (orOne n1 / orOne n2) (getNormal S r.pos) r.dir with
          | none => rfl
          | some k => rfl
    · simp only [Except.map]
      congr 2
      unfold turn M3.mul
      ext <;> dsimp only <;> ring
    · rfl
    · rfl

/-- A row in the lab as it is, and in a frame that is rolled by `a`. -/
noncomputable def spinLoc (a : ℝ) (h : Hit) : Hit := ⟨h.lab, turn (Z a) h.loc⟩

theorem E_roll (S : Surf) (o : ℝ) :
    mat { S with roll := o }.E = mat S.E * mat (Z (o - S.roll)) := by
  unfold Surf.E
  rw [C91_angles, C91_angles, mat_Z, mul_assoc (rotX _ * rotY _) (rotZ _) (rotZ _), rotZ_add]
  congr 2
  unfold radians; ring

theorem labtovx_roll (S : Surf) (o : ℝ) (r : Ray) :
    labtovx { S with roll := o } r = turn (Z (S.roll - o)) (labtovx S r) := by
  have hm : ∀ b, { S with roll := o }.E.mul ((Z (S.roll - o)).mul b) = S.E.mul b := by
    intro b
    rw [mul_comp S.E (Z (o - S.roll)) _ (E_roll S o)]
    congr 1
    rw [← mul_comp (Z (o - S.roll)) (Z (S.roll - o)) (Z (o - S.roll + (S.roll - o))) (Z_comp _ _)]
    rw [show o - S.roll + (S.roll - o) = 0 by ring, Z_zero]
  have key : ∀ b, { S with roll := o }.E.tmul b = (Z (S.roll - o)).mul (S.E.tmul b) := by
    intro b
    have : b = { S with roll := o }.E.mul ((Z (S.roll - o)).mul (S.E.tmul b)) := by
      rw [hm, mul_tmul _ (rotE S)]
    conv_lhs => rw [this]
    rw [tmul_mul _ (rotE { S with roll := o })]
  unfold labtovx turn
  dsimp only
  rw [key, key]

theorem vxtolab_roll (S : Surf) (o : ℝ) (r : Ray) :
    vxtolab { S with roll := o } (turn (Z (S.roll - o)) r) = vxtolab S r := by
  have hm : ∀ b, { S with roll := o }.E.mul ((Z (S.roll - o)).mul b) = S.E.mul b := by
    intro b
    rw [mul_comp S.E (Z (o - S.roll)) _ (E_roll S o)]
    congr 1
    rw [← mul_comp (Z (o - S.roll)) (Z (S.roll - o)) (Z (o - S.roll + (S.roll - o))) (Z_comp _ _)]
    rw [show o - S.roll + (S.roll - o) = 0 by ring, Z_zero]
  unfold vxtolab turn
  dsimp only
  rw [hm, hm]

theorem pass_roll (refr : PyStr → Except PyErr ℝ) (S : Surf) (o : ℝ) (ha : S.action ≠ 5)
    (hs : S.legs < 1 ∨ S.legWidth ≤ 0) (next : Option Surf) (prev : Hit) :
    passOne refr { S with roll := o } next prev =
      (passOne refr S next prev).map (fun ch => (ch.1, spinLoc (S.roll - o) ch.2)) := by
  have hi : ∀ r, intercept { S with roll := o } r = intercept S r := fun r =>
    intercept_same S S.vertex S.tilt S.pitch o r
  have hv : ∀ r, validate { S with roll := o } r = validate S r := fun r =>
    validate_same S S.vertex S.tilt S.pitch o r hs
  have hr : ∀ r, redirect refr { S with roll := o } next r = redirect refr S next r := fun r =>
    redirect_same refr S S.vertex S.tilt S.pitch o next next rfl r
  unfold passOne
  dsimp only
  rw [if_neg ha, if_neg ha, labtovx_roll, hi, intercept_spin]
  cases intercept S (labtovx S prev.lab) with
  | error e => rfl
  | ok cr =>
    obtain ⟨c, r⟩ := cr
    simp only [Except.map]
    cases c with
    | OK =>
      dsimp only
      have hpos : (turn (Z (S.roll - o)) r).pos = (Z (S.roll - o)).mul r.pos := rfl
      rw [hv, hpos, validate_spin _ _ _ hs]
      cases validate S r.pos with
      | OK =>
        dsimp only
        rw [hr, redirect_spin]
        cases redirect refr S next r with
        | error e => rfl
        | ok cr' =>
          simp only [Except.map]
          rw [vxtolab_roll]
          rfl
      | _ => dsimp only; rw [vxtolab_roll]; rfl
    | _ => dsimp only; rw [vxtolab_roll]; rfl

end Verif.Props.RayTurn
