import Verif.Model.FvcRefit
import Verif.Props.FvcOptimal
import Verif.Props.Ptl2fp
import Verif.Props.FpMetrology
import Verif.Props.GetPosmoves
import Verif.Lemmas.ZhaoBurgePoly
import Mathlib.LinearAlgebra.FiniteDimensional.Lemmas

/-!
# C88: global refit of the camera transformation
-/

namespace Verif.Props
open Verif.Py Verif.Model.Fvc2fp Verif.Model.FvcFit Verif.Model.FvcRefit Verif.Model.ZhaoBurge Verif.Lemmas.Fvc2fp Verif.Props.FvcOptimal
open Verif.Lemmas.ZhaoBurge Verif.Spec

namespace Rf

/-- Pixels and where they belong in the focal plane. -/
abbrev Data := List ((ℝ × ℝ) × (ℝ × ℝ))

/-- Sum of the squared distances between the images of the pixels under `F` and where they belong. -/
noncomputable def sumSq (F : ℝ × ℝ → ℝ × ℝ) (d : Data) : ℝ := (d.map fun e => dist2 (F e.1) e.2 ^ 2).sum

/-- The pixels that `F` puts closer than 0.08 mm to where they belong. -/
noncomputable def near (F : ℝ × ℝ → ℝ × ℝ) (d : Data) : Data := d.filter fun e => decide (dist2 (F e.1) e.2 < 0.08)

/-- A similarity: the pixel (with the normalisation of `t`) scaled and rotated by the complex number `a + i b`, then shifted, times 420 mm. -/
noncomputable def simil (t : FVC2FP) (a b c d : ℝ) (p : ℝ × ℝ) : ℝ × ℝ :=
  let X := (p.1 - t.xfvcOffset) / t.xfvcScale
  let Y := (p.2 - t.yfvcOffset) / t.yfvcScale
  (420 * (a * X - b * Y + c), 420 * (b * X + a * Y + d))

/-- The same pixel normalisation. -/
def SameNorm (t u : FVC2FP) : Prop :=
  u.xfvcScale = t.xfvcScale ∧ u.yfvcScale = t.yfvcScale ∧ u.xfvcOffset = t.xfvcOffset ∧ u.yfvcOffset = t.yfvcOffset

/-! ### The fields 0, 1, 2, 27 -/

theorem z1 (x y : ℝ) : getZ 1 x y = 1 := by
  rw [getZ_1]; simp [ev, Zp]

theorem term0 (x y : ℝ) : getZhaoBurgeTerm 0 x y = .ok (1, 0, .S) := by
  show Except.ok (getZ 1 x y, (0 : ℝ), Kind.S) = _
  rw [z1]

theorem term1 (x y : ℝ) : getZhaoBurgeTerm 1 x y = .ok (0, 1, .S) := by
  show Except.ok ((0 : ℝ), getZ 1 x y, Kind.S) = _
  rw [z1]

theorem z2 (x y : ℝ) : getZ 2 x y = 2 * x := by
  rw [getZ_2, s4]; simp [ev, Zp]

theorem z3 (x y : ℝ) : getZ 3 x y = 2 * y := by
  rw [getZ_3, s4]; simp [ev, Zp]

theorem term2 (x y : ℝ) : getZhaoBurgeTerm 2 x y = .ok (rh * (2 * x), rh * (2 * y), .S) := by
  show Except.ok (rh * getZ 2 x y, rh * getZ 3 x y, Kind.S) = _
  rw [z2, z3]

theorem term27 (x y : ℝ) : getZhaoBurgeTerm 27 x y = .ok (rh * (2 * y), -rh * (2 * x), .T) := by
  show Except.ok (rh * getZ 3 x y, -rh * getZ 2 x y, Kind.T) = _
  rw [z2, z3]

theorem rh_pos : 0 < rh := by
  unfold rh
  positivity

/-- Coefficients of the four fields that make any similarity of the result of the linear part. -/
theorem four_fields (ids : List ℕ) (hk : ∀ i ∈ ids, i < 33) (h4 : ∀ i ∈ [0, 1, 2, 27], i ∈ ids) (m n u v : ℝ) :
    ∃ c : Fin ids.length → ℝ, ∀ x y, getZhaoBurgeXY ids (List.ofFn c) x y = .ok (m * x - n * y + u, n * x + m * y + v) := by
  have hix : ∀ i ∈ [0, 1, 2, 27], ∃ k : Fin ids.length, ids[k] = i := by
    intro i hi
    obtain ⟨k, hk, e⟩ := List.getElem_of_mem (h4 i hi)
    exact ⟨⟨k, hk⟩, e⟩
  obtain ⟨k0, e0⟩ := hix 0 (by simp)
  obtain ⟨k1, e1⟩ := hix 1 (by simp)
  obtain ⟨k2, e2⟩ := hix 2 (by simp)
  obtain ⟨k3, e3⟩ := hix 27 (by simp)
  have hr : rh ≠ 0 := rh_pos.ne'
  refine ⟨Pi.single k0 u + Pi.single k1 v + Pi.single k2 (m / (2 * rh)) + Pi.single k3 (-n / (2 * rh)), fun x y => ?_⟩
  obtain ⟨F, hF⟩ := fields_exist ids hk x y
  have hsum : ∀ f : ℕ → ℝ, ∑ i, (Pi.single k0 u + Pi.single k1 v + Pi.single k2 (m / (2 * rh)) + Pi.single k3 (-n / (2 * rh)) : Fin ids.length → ℝ) i * f ids[i] =
      u * f 0 + v * f 1 + m / (2 * rh) * f 2 + -n / (2 * rh) * f 27 := by
    intro f
    have one : ∀ (k : Fin ids.length) (a : ℝ), ∑ i, (Pi.single k a : Fin ids.length → ℝ) i * f ids[i] = a * f ids[k] := by
      intro k a
      rw [Finset.sum_eq_single k]
      · rw [Pi.single_eq_same]
      · intro b _ hb; rw [Pi.single_eq_of_ne hb]; ring
      · intro h; exact absurd (Finset.mem_univ k) h
    simp only [Pi.add_apply, add_mul, Finset.sum_add_distrib]
    rw [one, one, one, one, e0, e1, e2, e3]
  rw [C25_sum ids _ x y F hF, zip_ofFn_sum ids _ (fun i => (F i).1), zip_ofFn_sum ids _ (fun i => (F i).2),
    hsum (fun i => (F i).1), hsum (fun i => (F i).2)]
  have g0 : F 0 = (1, 0) := by
    obtain ⟨k, e⟩ := hF 0 (h4 0 (by simp))
    rw [term0] at e; injection e with e; injection e with a b; injection b with b _
    exact Prod.ext a.symm b.symm
  have g1 : F 1 = (0, 1) := by
    obtain ⟨k, e⟩ := hF 1 (h4 1 (by simp))
    rw [term1] at e; injection e with e; injection e with a b; injection b with b _
    exact Prod.ext a.symm b.symm
  have g2 : F 2 = (rh * (2 * x), rh * (2 * y)) := by
    obtain ⟨k, e⟩ := hF 2 (h4 2 (by simp))
    rw [term2] at e; injection e with e; injection e with a b; injection b with b _
    exact Prod.ext a.symm b.symm
  have g3 : F 27 = (rh * (2 * y), -rh * (2 * x)) := by
    obtain ⟨k, e⟩ := hF 27 (h4 27 (by simp))
    rw [term27] at e; injection e with e; injection e with a b; injection b with b _
    exact Prod.ext a.symm b.symm
  rw [g0, g1, g2, g3]
  congr 1
  ext
  · field_simp; ring
  · field_simp; ring

/-! ### One fit -/

/-- The points given to the fit of the distortion. -/
noncomputable def moved (v : FVC2FP) (d : Data) : List FitPt :=
  d.map fun e => { x := (lin v (v.reduceFvc e.1)).1, y := (lin v (v.reduceFvc e.1)).2, xp := (reduceFp e.2).1, yp := (reduceFp e.2).2 }

/-- The object with scale, rotation and offset replaced. -/
noncomputable def withLin (t : FVC2FP) (p : ℝ × ℝ × ℝ × ℝ) : FVC2FP :=
  { t with scale := p.1, rotation := p.2.1, offsetX := p.2.2.1, offsetY := p.2.2.2 }

theorem onePass_iff (minimise : ((ℝ × ℝ × ℝ × ℝ) → Except PyErr ℝ) → Except PyErr (ℝ × ℝ × ℝ × ℝ)) (t t' : FVC2FP) (d : Data) :
    onePass minimise t d = .ok t' ↔ ∃ p c, minimise (objective (t.zbpolids, t.zbcoeffs) none none (d.map (fitPt t))) = .ok p ∧
      fitZhaoBurge t.zbpolids (moved (withLin t p) d) = .ok c ∧ t' = { withLin t p with zbcoeffs := List.ofFn c } := by
  unfold onePass fitScaleRotationOffset
  dsimp only
  cases hm : minimise (objective (t.zbpolids, t.zbcoeffs) none none (d.map (fitPt t))) with
  | error e =>
    constructor
    · intro h; cases h
    · rintro ⟨p, c, h, -⟩; cases h
  | ok p =>
    have hl : (d.map (fitPt t)).mapM (fun q => do
        let t ← transform q.x q.y p.1 p.2.1 p.2.2.1 p.2.2.2 none
        return ({ x := t.1, y := t.2, xp := q.xp, yp := q.yp } : FitPt)) = (Except.ok (moved (withLin t p) d) : Except PyErr _) := by
      rw [mapM_ok (g := fun q : FitPt => { x := (lin (withLin t p) (q.x, q.y)).1, y := (lin (withLin t p) (q.x, q.y)).2, xp := q.xp, yp := q.yp : FitPt })]
      · rw [List.map_map]; rfl
      · intro q _; rfl
    simp only [bind, Except.bind, Option.getD_none, if_true] at hl ⊢
    rw [hl]
    dsimp only
    cases hz : fitZhaoBurge t.zbpolids (moved (withLin t p) d) with
    | error e =>
      constructor
      · intro h; cases h
      · rintro ⟨p', c, h, h', -⟩
        injection h with h
        subst h
        rw [hz] at h'; cases h'
    | ok c =>
      constructor
      · intro h
        injection h with h
        exact ⟨p, c, rfl, hz, h.symm⟩
      · rintro ⟨p', c', h, h', rfl⟩
        injection h with h
        subst h
        rw [hz] at h'
        injection h' with h'
        subst h'
        rfl

/-- Sum of squares in terms of the residuals of the fit of the distortion. -/
theorem sumSq_eq (v : FVC2FP) (c : Fin v.zbpolids.length → ℝ) (G : ℝ × ℝ → ℝ × ℝ) (hk : ∀ i ∈ v.zbpolids, i < 33)
    (hG : Acts { v with zbcoeffs := List.ofFn c } G) (d : Data) : sumSq G d = 420 ^ 2 * residual v.zbpolids c (moved v d) := by
  obtain ⟨E, hE⟩ := C24_distortion { v with zbcoeffs := List.ofFn c } hk
  unfold sumSq residual moved
  rw [List.map_map, ← List.sum_map_mul_left]
  congr 1
  apply List.map_congr_left
  intro e _
  have h1 : getZhaoBurgeXY v.zbpolids (List.ofFn c) (lin v (v.reduceFvc e.1)).1 (lin v (v.reduceFvc e.1)).2 = .ok (E (lin v (v.reduceFvc e.1))) := hE _ _
  simp only [Function.comp]
  rw [h1, acts_eq hE hG]
  have h2 : lin { v with zbcoeffs := List.ofFn c } ({ v with zbcoeffs := List.ofFn c }.reduceFvc e.1) = lin v (v.reduceFvc e.1) := rfl
  rw [h2]
  unfold dist2
  rw [Real.sq_sqrt (by positivity)]
  unfold expandFp reduceFp
  simp only [Prod.fst_add, Prod.snd_add]
  ring

theorem acts_exists (t : FVC2FP) (hk : ∀ i ∈ t.zbpolids, i < 33) : ∃ F, Acts t F := by
  obtain ⟨D, hD⟩ := C24_distortion t hk
  exact ⟨_, fun l => fvc2fp_eq t hD l⟩

theorem acts_unique {t : FVC2FP} {F G : ℝ × ℝ → ℝ × ℝ} (hF : Acts t F) (hG : Acts t G) : F = G := by
  funext p
  have h1 := hF [p]
  rw [hG [p]] at h1
  injection h1 with h1
  injection h1 with h1
  exact h1.symm

/-- Result of one fit: no other coefficients are better. -/
theorem onePass_optimal {minimise : ((ℝ × ℝ × ℝ × ℝ) → Except PyErr ℝ) → Except PyErr (ℝ × ℝ × ℝ × ℝ)} {t t' : FVC2FP} {d : Data}
    (hk : ∀ i ∈ t.zbpolids, i < 33) (h : onePass minimise t d = .ok t') {F : ℝ × ℝ → ℝ × ℝ} (hF : Acts t' F) (cs : List ℝ)
    (hcs : cs.length = t.zbpolids.length) {G : ℝ × ℝ → ℝ × ℝ} (hG : Acts { t' with zbcoeffs := cs } G) : sumSq F d ≤ sumSq G d := by
  obtain ⟨p, c, -, hf, rfl⟩ := (onePass_iff minimise t t' d).1 h
  obtain ⟨c', rfl⟩ : ∃ c' : Fin t.zbpolids.length → ℝ, cs = List.ofFn c' := by
    refine ⟨fun i => cs[i.1]'(by rw [hcs]; exact i.2), ?_⟩
    apply List.ext_getElem
    · simp [hcs]
    · intro i h1 h2
      simp
  have h1 := sumSq_eq (withLin t p) c F hk hF d
  have h2 := sumSq_eq (withLin t p) c' G hk hG d
  rw [h1, h2]
  have := C62_optimal t.zbpolids hk (moved (withLin t p) d) c' c hf
  have e : residual (withLin t p).zbpolids c (moved (withLin t p) d) ≤ residual (withLin t p).zbpolids c' (moved (withLin t p) d) := this
  linarith

theorem onePass_keeps {minimise : ((ℝ × ℝ × ℝ × ℝ) → Except PyErr ℝ) → Except PyErr (ℝ × ℝ × ℝ × ℝ)} {t t' : FVC2FP} {d : Data}
    (h : onePass minimise t d = .ok t') : SameNorm t t' ∧ t'.zbpolids = t.zbpolids ∧ t'.zbcoeffs.length = t.zbpolids.length := by
  obtain ⟨p, c, -, -, rfl⟩ := (onePass_iff minimise t t' d).1 h
  exact ⟨⟨rfl, rfl, rfl, rfl⟩, rfl, by simp⟩

/-- Any similarity is reached by some coefficients. -/
theorem similarity_reached (t : FVC2FP) (hk : ∀ i ∈ t.zbpolids, i < 33) (h4 : ∀ i ∈ [0, 1, 2, 27], i ∈ t.zbpolids) (hs : t.scale ≠ 0)
    (a b u w : ℝ) : ∃ cs : List ℝ, cs.length = t.zbpolids.length ∧ Acts { t with zbcoeffs := cs } (simil t a b u w) := by
  have hcs := Real.sin_sq_add_cos_sq t.rotation
  obtain ⟨c, hc⟩ := four_fields t.zbpolids hk h4 ((a * Real.cos t.rotation + b * Real.sin t.rotation) / t.scale - 1)
    ((b * Real.cos t.rotation - a * Real.sin t.rotation) / t.scale) (u - (a * t.offsetX - b * t.offsetY)) (w - (b * t.offsetX + a * t.offsetY))
  refine ⟨List.ofFn c, by simp, ?_⟩
  intro l
  rw [fvc2fp_eq { t with zbcoeffs := List.ofFn c } (D := fun q => (((a * Real.cos t.rotation + b * Real.sin t.rotation) / t.scale - 1) * q.1 -
      ((b * Real.cos t.rotation - a * Real.sin t.rotation) / t.scale) * q.2 + (u - (a * t.offsetX - b * t.offsetY)),
    ((b * Real.cos t.rotation - a * Real.sin t.rotation) / t.scale) * q.1 + ((a * Real.cos t.rotation + b * Real.sin t.rotation) / t.scale - 1) * q.2 +
      (w - (b * t.offsetX + a * t.offsetY)))) (fun x y => hc x y)]
  congr 1
  apply List.map_congr_left
  intro p _
  have hr : ({ t with zbcoeffs := List.ofFn c } : FVC2FP).reduceFvc p = ((p.1 - t.xfvcOffset) / t.xfvcScale, (p.2 - t.yfvcOffset) / t.yfvcScale) := rfl
  rw [hr]
  unfold simil expandFp lin
  dsimp only
  generalize (p.1 - t.xfvcOffset) / t.xfvcScale = X
  generalize (p.2 - t.yfvcOffset) / t.yfvcScale = Y
  generalize Real.cos t.rotation = C at hcs ⊢
  generalize Real.sin t.rotation = S at hcs ⊢
  generalize t.scale = s at hs ⊢
  generalize t.offsetX = ox
  generalize t.offsetY = oy
  simp only [Prod.mk_add_mk]
  ext
  · dsimp only
    field_simp
    linear_combination (a * (X + ox) - b * (Y + oy)) * hcs
  · dsimp only
    field_simp
    linear_combination (b * (X + ox) + a * (Y + oy)) * hcs

theorem refit_iff {minimise : ((ℝ × ℝ × ℝ × ℝ) → Except PyErr ℝ) → Except PyErr (ℝ × ℝ × ℝ × ℝ)} {t t2 : FVC2FP} {ids : List ℕ} {d : Data}
    (hk : ∀ i ∈ ids, i < 33) : refit minimise t ids d = .ok t2 ↔
      ∃ t1 F1, onePass minimise { t with zbpolids := ids } d = .ok t1 ∧ Acts t1 F1 ∧ onePass minimise t1 (near F1 d) = .ok t2 := by
  unfold refit
  cases h1 : onePass minimise { t with zbpolids := ids } d with
  | error e =>
    constructor
    · intro h; cases h
    · rintro ⟨t1, F1, h, -⟩; cases h
  | ok t1 =>
    have hz := (onePass_keeps h1).2.1
    obtain ⟨F1, hF1⟩ := acts_exists t1 (by rw [hz]; exact hk)
    have hq := hF1 (d.map Prod.fst)
    have hnear : ((d.zip ((d.map Prod.fst).map F1)).filter fun e => decide (hypot (e.2.1 - e.1.2.1) (e.2.2 - e.1.2.2) < 0.08)).map Prod.fst = near F1 d := by
      rw [List.map_map, zip_map_self, List.filter_map, List.map_map]
      unfold near
      have : (Prod.fst ∘ fun e : (ℝ × ℝ) × (ℝ × ℝ) => (e, (F1 ∘ Prod.fst) e)) = id := rfl
      rw [this, List.map_id]
      rfl
    simp only [bind, Except.bind]
    rw [hq]
    dsimp only
    rw [hnear]
    constructor
    · intro h; exact ⟨t1, F1, rfl, hF1, h⟩
    · rintro ⟨t1', F1', h, hF, h2⟩
      injection h with h
      subst h
      rw [acts_unique hF1 hF]
      exact h2

theorem sumSq_zero {F : ℝ × ℝ → ℝ × ℝ} {d : Data} : sumSq F d ≤ 0 ↔ ∀ e ∈ d, F e.1 = e.2 := by
  unfold sumSq
  induction d with
  | nil => simp
  | cons e d ih =>
    have h0 : 0 ≤ (d.map fun e => dist2 (F e.1) e.2 ^ 2).sum := List.sum_nonneg (by
      intro a ha
      obtain ⟨b, -, rfl⟩ := List.mem_map.1 ha
      positivity)
    rw [List.map_cons, List.sum_cons, List.forall_mem_cons, ← ih]
    constructor
    · intro h
      have hp := sq_nonneg (dist2 (F e.1) e.2)
      refine ⟨?_, by linarith⟩
      have hz : dist2 (F e.1) e.2 ^ 2 = 0 := by linarith
      unfold dist2 at hz
      rw [Real.sq_sqrt (by positivity)] at hz
      have a1 := sq_nonneg ((F e.1).1 - e.2.1)
      have a2 := sq_nonneg ((F e.1).2 - e.2.2)
      have b1 : (F e.1).1 - e.2.1 = 0 := pow_eq_zero_iff two_ne_zero |>.1 (by linarith)
      have b2 : (F e.1).2 - e.2.2 = 0 := pow_eq_zero_iff two_ne_zero |>.1 (by linarith)
      exact Prod.ext (by linarith) (by linarith)
    · rintro ⟨h1, h2⟩
      have hz : dist2 (F e.1) e.2 = 0 := by unfold dist2; rw [h1]; simp
      rw [hz]
      linarith

theorem onePass_exact {minimise : ((ℝ × ℝ × ℝ × ℝ) → Except PyErr ℝ) → Except PyErr (ℝ × ℝ × ℝ × ℝ)} {t t' : FVC2FP} {d : Data}
    (hk : ∀ i ∈ t.zbpolids, i < 33) (h4 : ∀ i ∈ [0, 1, 2, 27], i ∈ t.zbpolids) (h : onePass minimise t d = .ok t') (hs : t'.scale ≠ 0)
    {F : ℝ × ℝ → ℝ × ℝ} (hF : Acts t' F) {a b u w : ℝ} (hd : ∀ e ∈ d, e.2 = simil t a b u w e.1) : ∀ e ∈ d, F e.1 = e.2 := by
  obtain ⟨⟨n1, n2, n3, n4⟩, hz, -⟩ := onePass_keeps h
  obtain ⟨cs, hcs, hG⟩ := similarity_reached t' (by rw [hz]; exact hk) (by rw [hz]; exact h4) hs a b u w
  have hle := onePass_optimal hk h hF cs (by rw [hcs, hz]) hG
  have hsim : simil t' a b u w = simil t a b u w := by
    funext p; unfold simil; rw [n1, n2, n3, n4]
  have hzero : sumSq (simil t' a b u w) d ≤ 0 := sumSq_zero.2 (fun e he => by rw [hsim]; exact (hd e he).symm)
  exact sumSq_zero.1 (hle.trans hzero)

end Rf

open Rf

/-- C88: the refit keeps the normalisation of the pixels and has the distortion fields asked for.  Its first fit uses everything, and no other
coefficients of these fields are better; the second one uses what the first one puts closer than 0.08 mm to where it belongs: on this no
other coefficients and, with the fields 0, 1, 2, 27 among them, no similarity at all is better, whatever scale, rotation and offset the minimiser
found; if it finds minima no scale, rotation and offset with the coefficients of the first fit are better, so that the first fit itself is not. -/
theorem C88_refit (minimise : ((ℝ × ℝ × ℝ × ℝ) → Except PyErr ℝ) → Except PyErr (ℝ × ℝ × ℝ × ℝ)) (t t2 : FVC2FP) (ids : List ℕ)
    (d : Data) (hk : ∀ i ∈ ids, i < 33) (h : refit minimise t ids d = .ok t2) (F2 : ℝ × ℝ → ℝ × ℝ) (hF2 : Acts t2 F2) :
    SameNorm t t2 ∧ t2.zbpolids = ids ∧ ∃ t1 F1, SameNorm t t1 ∧ t1.zbpolids = ids ∧ Acts t1 F1 ∧
      (∀ cs G, cs.length = ids.length → Acts { t1 with zbcoeffs := cs } G → sumSq F1 d ≤ sumSq G d) ∧
      (∀ cs G, cs.length = ids.length → Acts { t2 with zbcoeffs := cs } G → sumSq F2 (near F1 d) ≤ sumSq G (near F1 d)) ∧
      ((∀ i ∈ [0, 1, 2, 27], i ∈ ids) → t2.scale ≠ 0 → ∀ a b u w, sumSq F2 (near F1 d) ≤ sumSq (simil t a b u w) (near F1 d)) ∧
      ((∀ (f : ℝ × ℝ × ℝ × ℝ → ℝ) p, minimise (fun q => .ok (f q)) = .ok p → ∀ q, f p ≤ f q) →
        (∀ u G, SameNorm t u → u.zbpolids = ids → u.zbcoeffs = t1.zbcoeffs → Acts u G → sumSq F2 (near F1 d) ≤ sumSq G (near F1 d)) ∧
        sumSq F2 (near F1 d) ≤ sumSq F1 (near F1 d)) := by
  obtain ⟨t1, F1, h1, hF1, h2⟩ := (refit_iff hk).1 h
  obtain ⟨n1, z1, l1⟩ := onePass_keeps h1
  obtain ⟨n2, z2, l2⟩ := onePass_keeps h2
  change t1.zbpolids = ids at z1
  change t1.zbcoeffs.length = ids.length at l1
  have hn1 : SameNorm t t1 := n1
  have hn2 : SameNorm t t2 := ⟨n2.1.trans n1.1, n2.2.1.trans n1.2.1, n2.2.2.1.trans n1.2.2.1, n2.2.2.2.trans n1.2.2.2⟩
  have hk1 : ∀ i ∈ t1.zbpolids, i < 33 := by rw [z1]; exact hk
  have hopt2 : ∀ cs G, cs.length = ids.length → Acts { t2 with zbcoeffs := cs } G → sumSq F2 (near F1 d) ≤ sumSq G (near F1 d) := by
    intro cs G hcs hG
    exact onePass_optimal hk1 h2 hF2 cs (by rw [z1]; exact hcs) hG
  refine ⟨hn2, z2.trans z1, t1, F1, hn1, z1, hF1, ?_, hopt2, ?_, ?_⟩
  · intro cs G hcs hG
    exact onePass_optimal (t := { t with zbpolids := ids }) hk h1 hF1 cs hcs hG
  · intro h4 hs a b u w
    obtain ⟨cs, hcs, hG⟩ := similarity_reached t2 (by rw [z2, z1]; exact hk) (by rw [z2, z1]; exact h4) hs a b u w
    have hsim : simil t2 a b u w = simil t a b u w := by
      funext p; unfold simil; rw [hn2.1, hn2.2.1, hn2.2.2.1, hn2.2.2.2]
    rw [hsim] at hG
    exact hopt2 cs _ (by rw [hcs, z2, z1]) hG
  · intro hmin
    have key : ∀ u G, SameNorm t u → u.zbpolids = ids → u.zbcoeffs = t1.zbcoeffs → Acts u G → sumSq F2 (near F1 d) ≤ sumSq G (near F1 d) := by
      intro u G hu hui huc hG
      obtain ⟨p, c, hp, -, e⟩ := (onePass_iff minimise t1 t2 (near F1 d)).1 h2
      obtain ⟨D, hD⟩ := C24_distortion t1 hk1
      have hobj := funext (objective_eq t1 D hD none none ((near F1 d).map (fitPt t1)))
      rw [hobj] at hp
      have hle := hmin _ p hp (u.scale, u.rotation, u.offsetX, u.offsetY)
      -- the sums of squares with the distortion of the first fit
      have hcost : ∀ (q : ℝ × ℝ × ℝ × ℝ) (K : ℝ × ℝ → ℝ × ℝ), Acts (withLin t1 q) K →
          sumSq K (near F1 d) = 420 ^ 2 * cost (withLin t1 q) D ((near F1 d).map (fitPt t1)) := by
        intro q K hK
        have hDq : Verif.Props.HasDistortion (withLin t1 q) D := hD
        unfold Rf.sumSq cost
        rw [List.map_map, ← List.sum_map_mul_left]
        congr 1
        apply List.map_congr_left
        intro e _
        rw [acts_eq hDq hK]
        unfold dist2
        rw [Real.sq_sqrt (by positivity)]
        simp only [Function.comp]
        have hl : lin (withLin t1 q) ((withLin t1 q).reduceFvc e.1) = lin (withLin t1 q) ((fitPt t1 e).x, (fitPt t1 e).y) := rfl
        rw [hl]
        unfold expandFp fitPt reduceFp
        simp only
        ring
      have hu' : u = withLin t1 (u.scale, u.rotation, u.offsetX, u.offsetY) := by
        unfold withLin
        obtain ⟨k1, k2, k3, k4⟩ := hu
        obtain ⟨m1, m2, m3, m4⟩ := hn1
        cases u
        simp_all
      obtain ⟨K, hK⟩ := acts_exists (withLin t1 p) hk1
      have a1 : sumSq F2 (near F1 d) ≤ sumSq K (near F1 d) := by
        refine hopt2 t1.zbcoeffs K l1 ?_
        rw [e]
        exact hK
      rw [hcost p K hK] at a1
      rw [hu'] at hG
      rw [hcost _ G hG]
      have a2 : cost (withLin t1 p) D ((near F1 d).map (fitPt t1)) ≤ cost (withLin t1 (u.scale, u.rotation, u.offsetX, u.offsetY)) D ((near F1 d).map (fitPt t1)) := hle
      linarith
    exact ⟨key, key t1 F1 hn1 z1 rfl hF1⟩

/-- C88: if what is measured is a similarity of the pixels exactly, the result sends every pixel exactly where it belongs, whatever scale
(not zero), rotation and offset the minimiser found. -/
theorem C88_exact (minimise : ((ℝ × ℝ × ℝ × ℝ) → Except PyErr ℝ) → Except PyErr (ℝ × ℝ × ℝ × ℝ)) (hsc : ∀ f p, minimise f = .ok p → p.1 ≠ 0)
    (t t2 : FVC2FP) (ids : List ℕ) (d : Data) (hk : ∀ i ∈ ids, i < 33) (h4 : ∀ i ∈ [0, 1, 2, 27], i ∈ ids)
    (a b u w : ℝ) (hd : ∀ e ∈ d, e.2 = simil t a b u w e.1) (h : refit minimise t ids d = .ok t2) (F2 : ℝ × ℝ → ℝ × ℝ) (hF2 : Acts t2 F2) :
    ∀ e ∈ d, F2 e.1 = e.2 := by
  obtain ⟨t1, F1, h1, hF1, h2⟩ := (refit_iff hk).1 h
  have hscale : ∀ {t t' d}, onePass minimise t d = .ok t' → t'.scale ≠ 0 := by
    intro t t' d h
    obtain ⟨p, c, hp, -, rfl⟩ := (onePass_iff minimise t t' d).1 h
    exact hsc _ p hp
  have e1 := onePass_exact (t := { t with zbpolids := ids }) hk h4 h1 (hscale h1) hF1 (a := a) (b := b) (u := u) (w := w) hd
  obtain ⟨n1, z1, -⟩ := onePass_keeps h1
  change t1.zbpolids = ids at z1
  have hnear : near F1 d = d := by
    unfold near
    rw [List.filter_eq_self]
    intro e he
    rw [decide_eq_true_eq, e1 e he]
    unfold dist2
    norm_num
  rw [hnear] at h2
  refine onePass_exact (by rw [z1]; exact hk) (by rw [z1]; exact h4) h2 (hscale h2) hF2 (a := a) (b := b) (u := u) (w := w) ?_
  intro e he
  rw [hd e he]
  unfold simil
  have n : SameNorm t t1 := n1
  rw [n.1, n.2.1, n.2.2.1, n.2.2.2]

/-- C88: with the four fields 0, 1, 2, 27 alone the refit of exact data with two different pixels runs to the end. -/
theorem C88_runs (minimise : ((ℝ × ℝ × ℝ × ℝ) → Except PyErr ℝ) → Except PyErr (ℝ × ℝ × ℝ × ℝ)) (hsc : ∀ f, ∃ p, minimise f = .ok p ∧ p.1 ≠ 0)
    (t : FVC2FP) (hx : t.xfvcScale ≠ 0) (hy : t.yfvcScale ≠ 0) (d : Data) (a b u w : ℝ) (hd : ∀ e ∈ d, e.2 = simil t a b u w e.1)
    (h2 : ∃ e ∈ d, ∃ e' ∈ d, e.1 ≠ e'.1) : ∃ t2, refit minimise t [0, 1, 2, 27] d = .ok t2 := by
  have hk : ∀ i ∈ [0, 1, 2, 27], i < 33 := by decide
  have hrun : ∀ t : FVC2FP, t.xfvcScale ≠ 0 → t.yfvcScale ≠ 0 → t.zbpolids = [0, 1, 2, 27] → ∃ t', onePass minimise t d = .ok t' ∧ t'.scale ≠ 0 := by
    intro t hx hy hz
    obtain ⟨p, hp, hp0⟩ := hsc (objective (t.zbpolids, t.zbcoeffs) none none (d.map (fitPt t)))
    have hsol : ∃ c, fitZhaoBurge t.zbpolids (moved (withLin t p) d) = .ok c := by
      rw [hz]
      refine (C62_solvable [0, 1, 2, 27] hk _).2 ?_
      rintro ⟨c, hc0, hc⟩
      apply hc0
      obtain ⟨e, he, e', he', hne⟩ := h2
      have hval : ∀ x y, getZhaoBurgeXY [0, 1, 2, 27] (List.ofFn c) x y = .ok (c 0 + c 2 * (rh * (2 * x)) + c 3 * (rh * (2 * y)),
          c 1 + c 2 * (rh * (2 * y)) - c 3 * (rh * (2 * x))) := by
        intro x y
        have hof : List.ofFn c = [c 0, c 1, c 2, c 3] := by
          simp only [List.length_cons, List.length_nil] at c ⊢
          simp [List.ofFn_succ]
        rw [hof]
        unfold getZhaoBurgeXY
        simp only [List.zip_cons_cons, List.zip_nil_right, List.foldlM_cons, List.foldlM_nil, term0, term1, term2, term27, bind, Except.bind, pure, Except.pure]
        congr 1
        ext <;> ring
      have m1 := hc _ (List.mem_map.2 ⟨e, he, rfl⟩)
      have m2 := hc _ (List.mem_map.2 ⟨e', he', rfl⟩)
      rw [hval] at m1 m2
      injection m1 with m1
      injection m2 with m2
      injection m1 with p1 p2
      injection m2 with q1 q2
      have hlin : lin (withLin t p) ((withLin t p).reduceFvc e.1) ≠ lin (withLin t p) ((withLin t p).reduceFvc e'.1) := by
        intro hh
        apply hne
        have g1 := undo_lin (withLin t p) hx hy hp0 e.1
        have g2 := undo_lin (withLin t p) hx hy hp0 e'.1
        rw [← g1, hh, g2]
      generalize lin (withLin t p) ((withLin t p).reduceFvc e.1) = z at p1 p2 hlin
      generalize lin (withLin t p) ((withLin t p).reduceFvc e'.1) = z' at q1 q2 hlin
      have hr := rh_pos
      have hdist : (z.1 - z'.1) ^ 2 + (z.2 - z'.2) ^ 2 ≠ 0 := by
        intro h0
        apply hlin
        have a1 := sq_nonneg (z.1 - z'.1)
        have a2 := sq_nonneg (z.2 - z'.2)
        have b1 : z.1 - z'.1 = 0 := pow_eq_zero_iff two_ne_zero |>.1 (by linarith)
        have b2 : z.2 - z'.2 = 0 := pow_eq_zero_iff two_ne_zero |>.1 (by linarith)
        exact Prod.ext (by linarith) (by linarith)
      dsimp only at p1 p2 q1 q2
      have c2 : c 2 = 0 := by
        have : (c 2 * (2 * rh)) * ((z.1 - z'.1) ^ 2 + (z.2 - z'.2) ^ 2) = 0 := by
          linear_combination (z.1 - z'.1) * (p1 - q1) + (z.2 - z'.2) * (p2 - q2)
        rcases mul_eq_zero.1 this with h | h
        · rcases mul_eq_zero.1 h with h | h
          · exact h
          · exact absurd h (by positivity)
        · exact absurd h hdist
      have c3 : c 3 = 0 := by
        have : (c 3 * (2 * rh)) * ((z.1 - z'.1) ^ 2 + (z.2 - z'.2) ^ 2) = 0 := by
          linear_combination (z.2 - z'.2) * (p1 - q1) - (z.1 - z'.1) * (p2 - q2)
        rcases mul_eq_zero.1 this with h | h
        · rcases mul_eq_zero.1 h with h | h
          · exact h
          · exact absurd h (by positivity)
        · exact absurd h hdist
      rw [c2, c3] at p1 p2
      funext i
      have hi : i = 0 ∨ i = 1 ∨ i = 2 ∨ i = 3 := by
        revert i; decide
      rcases hi with rfl | rfl | rfl | rfl
      · simpa using p1
      · simpa using p2
      · exact c2
      · exact c3
    obtain ⟨c, hc⟩ := hsol
    exact ⟨_, (onePass_iff minimise t _ d).2 ⟨p, c, hp, hc, rfl⟩, hp0⟩
  obtain ⟨t1, h1, hs1⟩ := hrun { t with zbpolids := [0, 1, 2, 27] } hx hy rfl
  obtain ⟨n1, z1, -⟩ := onePass_keeps h1
  obtain ⟨F1, hF1⟩ := acts_exists t1 (by rw [z1]; exact hk)
  have e1 := onePass_exact (t := { t with zbpolids := [0, 1, 2, 27] }) hk (fun i hi => hi) h1 hs1 hF1 (a := a) (b := b) (u := u) (w := w) hd
  have hnear : near F1 d = d := by
    unfold near
    rw [List.filter_eq_self]
    intro e he
    rw [decide_eq_true_eq, e1 e he]
    unfold dist2
    norm_num
  have n : SameNorm t t1 := n1
  obtain ⟨t2, ht2, -⟩ := hrun t1 (by rw [n.1]; exact hx) (by rw [n.2.1]; exact hy) z1
  exact ⟨t2, (refit_iff hk).2 ⟨t1, F1, h1, hF1, by rw [hnear]; exact ht2⟩⟩

/-- A camera transformation and data that meet the hypotheses of the two theorems above. -/
example : ∃ (minimise : ((ℝ × ℝ × ℝ × ℝ) → Except PyErr ℝ) → Except PyErr (ℝ × ℝ × ℝ × ℝ)) (t : FVC2FP) (d : Data),
    (∀ f p, minimise f = .ok p → p.1 ≠ 0) ∧ (∀ f, ∃ p, minimise f = .ok p ∧ p.1 ≠ 0) ∧ t.xfvcScale ≠ 0 ∧ t.yfvcScale ≠ 0 ∧
    (∀ e ∈ d, e.2 = simil t 1 2 3 4 e.1) ∧ ∃ e ∈ d, ∃ e' ∈ d, e.1 ≠ e'.1 := by
  refine ⟨fun _ => .ok (1, 0, 0, 0), { scale := 1, rotation := 0, offsetX := 0, offsetY := 0 },
    [((0, 0), simil { scale := 1, rotation := 0, offsetX := 0, offsetY := 0 } 1 2 3 4 (0, 0)),
     ((1, 0), simil { scale := 1, rotation := 0, offsetX := 0, offsetY := 0 } 1 2 3 4 (1, 0))], ?_, ?_, by norm_num, by norm_num, ?_, ?_⟩
  · intro f p h; injection h with h; rw [← h]; norm_num
  · intro f; exact ⟨_, rfl, by norm_num⟩
  · intro e he
    simp only [List.mem_cons, List.not_mem_nil, or_false] at he
    rcases he with rfl | rfl <;> rfl
  · exact ⟨_, List.mem_cons_self, _, List.mem_cons_of_mem _ List.mem_cons_self, by simp⟩

/-- C88: with fewer equations (two for each point that is left) than distortion fields there is no result. -/
theorem C88_too_few (minimise : ((ℝ × ℝ × ℝ × ℝ) → Except PyErr ℝ) → Except PyErr (ℝ × ℝ × ℝ × ℝ)) (t t1 t2 : FVC2FP) (ids : List ℕ)
    (d : Data) (hk : ∀ i ∈ ids, i < 33) (F1 : ℝ × ℝ → ℝ × ℝ) (h1 : onePass minimise { t with zbpolids := ids } d = .ok t1) (hF1 : Acts t1 F1)
    (hfew : 2 * (near F1 d).length < ids.length) : refit minimise t ids d ≠ .ok t2 := by
  intro h
  obtain ⟨t1', F1', h1', hF1', h2⟩ := (refit_iff hk).1 h
  rw [h1] at h1'
  injection h1' with e
  subst e
  rw [acts_unique hF1' hF1] at h2
  have z1 : t1.zbpolids = ids := (onePass_keeps h1).2.1
  obtain ⟨p, c, -, hc, -⟩ := (onePass_iff minimise t1 t2 (near F1 d)).1 h2
  refine (C62_solvable t1.zbpolids (by rw [z1]; exact hk) _).1 ⟨c, hc⟩ ?_
  let l := moved (withLin t1 p) (near F1 d)
  have hl : l.length = (near F1 d).length := by simp [l, moved]
  let φ : (Fin t1.zbpolids.length → ℝ) →ₗ[ℝ] (Fin l.length × Bool → ℝ) :=
    { toFun := fun v kb => Verif.Lemmas.LinAlg.pred (fitDesign t1.zbpolids) v (l[kb.1], kb.2)
      map_add' := by
        intro v v'; funext kb
        simp only [Verif.Lemmas.LinAlg.pred, Pi.add_apply, add_mul, Finset.sum_add_distrib]
      map_smul' := by
        intro r v; funext kb
        simp only [Verif.Lemmas.LinAlg.pred, Pi.smul_apply, smul_eq_mul, RingHom.id_apply, Finset.mul_sum, mul_assoc] }
  have hker : LinearMap.ker φ ≠ ⊥ := by
    apply LinearMap.ker_ne_bot_of_finrank_lt
    rw [Module.finrank_fintype_fun_eq_card, Module.finrank_fintype_fun_eq_card]
    simp only [Fintype.card_prod, Fintype.card_fin, Fintype.card_bool]
    rw [hl, z1]
    omega
  obtain ⟨v, hv, hv0⟩ := (Submodule.ne_bot_iff _).1 hker
  refine ⟨v, hv0, fun q hq => ?_⟩
  obtain ⟨k, hkl, rfl⟩ := List.getElem_of_mem hq
  rw [LinearMap.mem_ker] at hv
  have b0 := congrFun hv (⟨k, hkl⟩, false)
  have b1 := congrFun hv (⟨k, hkl⟩, true)
  rw [xy_pred t1.zbpolids (by rw [z1]; exact hk)]
  exact congrArg Except.ok (Prod.ext b0 b1)

/-! ### The rows used -/

namespace Rf
open Verif.Model.Ptl2fp (ptl2fp applyPtl2fp withZ)

/-- The last row of the metrology table with this identifier. -/
def LastOf (met : List MetRow) (p : PyStr) (m : MetRow) : Prop :=
  ∃ pre post, met = pre ++ m :: post ∧ m.dev = p ∧ ∀ x ∈ post, x.dev ≠ p

/-- A row counts: no flags if there are flags, and a small enough error if there are errors and a limit. -/
def Counts (maxRms : ℝ) (t : ParTable) (r : ParRow) : Prop :=
  (t.hasFlags = true → r.flags = 0) ∧ (t.hasErr = true → 0 < maxRms → r.err < maxRms)

/-- The table has coordinates. -/
def Adds : Option ParTable → Prop
  | none => False
  | some t => t.hasOffset = true ∨ t.hasStatic = true

open Classical in
/-- Identifiers and coordinates of the rows of a file that count; `OFFSET_X` goes before `OFFSET_X_STATIC`. -/
noncomputable def usedOf (maxRms : ℝ) : Option ParTable → List (PyStr × (ℝ × ℝ))
  | none => []
  | some t =>
    if t.hasOffset = true then (t.rows.filter fun r => decide (Counts maxRms t r)).map fun r => (r.pos, r.xy)
    else if t.hasStatic = true then (t.rows.filter fun r => decide (Counts maxRms t r)).map fun r => (r.pos, r.xyStatic)
    else []

/-- What is computed for a row. -/
def Moves (al : Model.Ptl2fp.Dict) (r2z : ℝ → ℝ) (met : List MetRow) (r : PyStr × (ℝ × ℝ)) (q : Pair) : Prop :=
  ∃ m v x y, LastOf met r.1 m ∧ Model.Xy2qs.flat2ptl r.2.1 r.2.2 = (x, y) ∧ ptl2fp al m.petal ![x, y, r2z (Real.sqrt (x ^ 2 + y ^ 2))] = .ok v ∧
    q.meas = (v 0, v 1) ∧ q.goal = m.xy

theorem metOf_iff (met : List MetRow) (p : PyStr) (m : MetRow) : metOf met p = .ok m ↔ LastOf met p m := by
  have hf : metOf met p = .ok m ↔ met.reverse.find? (fun m => decide (m.dev = p)) = some m := by
    unfold metOf
    cases met.reverse.find? fun m => decide (m.dev = p) with
    | none => constructor <;> (intro h; cases h)
    | some x =>
      constructor
      · intro h; injection h with h; rw [h]
      · intro h; injection h with h; rw [h]
  rw [hf, List.find?_eq_some_iff_append]
  unfold LastOf
  constructor
  · rintro ⟨h1, as, bs, h2, h3⟩
    refine ⟨bs.reverse, as.reverse, ?_, by simpa using h1, ?_⟩
    · have := congrArg List.reverse h2
      simpa using this
    · intro x hx
      have := h3 x (by simpa using hx)
      simpa using this
  · rintro ⟨pre, post, h1, h2, h3⟩
    refine ⟨by simpa using h2, post.reverse, pre.reverse, by rw [h1]; simp, ?_⟩
    intro x hx
    have := h3 x (by simpa using hx)
    simpa using this

theorem applied_known {d : Model.Ptl2fp.Dict} {spots : List (ℕ × (Fin 3 → ℝ))} (petals : List ℕ) (init out : List (Fin 3 → ℝ))
    (h : petals.foldlM (init := init) (fun out petal => do
      let a ← Model.Ptl2fp.lookup d petal
      return List.zipWith (fun (s : ℕ × (Fin 3 → ℝ)) o => if s.1 = petal then a.R.mulVec s.2 + a.T else o) spots out) = (Except.ok out : Except PyErr _)) :
    ∀ k ∈ petals, (d k).isSome := by
  induction petals generalizing init with
  | nil => simp
  | cons k petals ih =>
    rw [List.foldlM_cons] at h
    cases hk : d k with
    | none =>
      have : Model.Ptl2fp.lookup d k = .error .keyError := by unfold Model.Ptl2fp.lookup; rw [hk]
      rw [this] at h
      cases h
    | some a =>
      have : Model.Ptl2fp.lookup d k = .ok a := by unfold Model.Ptl2fp.lookup; rw [hk]
      rw [this] at h
      intro j hj
      rcases List.mem_cons.1 hj with rfl | hj
      · rw [hk]; rfl
      · exact ih _ h j hj

theorem forall₂_det {α β : Type} {R : α → β → Prop} (hR : ∀ a b c, R a b → R a c → b = c) {l : List α} {x y : List β}
    (h1 : List.Forall₂ R l x) (h2 : List.Forall₂ R l y) : x = y := by
  induction h1 generalizing y with
  | nil => cases h2; rfl
  | cons ha _ ih =>
    cases h2 with
    | cons hb ht => rw [hR _ _ _ ha hb, ih ht]

/-- The petals in any order: row by row. -/
theorem applied_iff {d : Model.Ptl2fp.Dict} {petals : List ℕ} {spots : List (ℕ × (Fin 3 → ℝ))} (hp : ∀ k, k ∈ petals ↔ k ∈ spots.map Prod.fst)
    (out : List (Fin 3 → ℝ)) : applyPtl2fp d petals spots = .ok out ↔ List.Forall₂ (fun s o => ptl2fp d s.1 s.2 = .ok o) spots out := by
  constructor
  · intro h
    have hk := applied_known _ _ _ h
    obtain ⟨out', h', hall⟩ := C10_table d petals spots (fun s hs => (hp _).2 (List.mem_map.2 ⟨s, hs, rfl⟩)) hk
    rw [h] at h'
    injection h' with h'
    rw [h']; exact hall
  · intro h
    have hk : ∀ k ∈ petals, (d k).isSome := by
      intro k hk
      obtain ⟨s, hs, rfl⟩ := List.mem_map.1 ((hp k).1 hk)
      obtain ⟨o, -, ho⟩ := FpMetrology.forall₂_mem h hs
      cases hd : d s.1 with
      | none => unfold ptl2fp Model.Ptl2fp.lookup at ho; rw [hd] at ho; cases ho
      | some a => rfl
    obtain ⟨out', h', hall⟩ := C10_table d petals spots (fun s hs => (hp _).2 (List.mem_map.2 ⟨s, hs, rfl⟩)) hk
    rw [h', forall₂_det (fun a b c hb hc => by rw [hb] at hc; injection hc) hall h]

theorem good_iff (maxRms : ℝ) (t : ParTable) (r : ParRow) : good maxRms t r = true ↔ Counts maxRms t r := by
  unfold good Counts
  cases t.hasFlags <;> cases t.hasErr <;> by_cases h : 0 < maxRms <;> simp [h]

theorem forall₂_append_left {α β : Type} {R : α → β → Prop} {a b : List α} {x : List β} :
    List.Forall₂ R (a ++ b) x ↔ ∃ y z, x = y ++ z ∧ List.Forall₂ R a y ∧ List.Forall₂ R b z := by
  induction a generalizing x with
  | nil =>
    constructor
    · intro h; exact ⟨[], x, rfl, .nil, h⟩
    · rintro ⟨y, z, rfl, h1, h2⟩; cases h1; exact h2
  | cons c a ih =>
    constructor
    · intro h
      cases h with
      | cons hc ht =>
        obtain ⟨y, z, rfl, h1, h2⟩ := ih.1 ht
        exact ⟨_ :: y, z, rfl, .cons hc h1, h2⟩
    · rintro ⟨y, z, rfl, h1, h2⟩
      cases h1 with
      | cons hc ht => exact .cons hc (ih.2 ⟨_, z, rfl, ht, h2⟩)

/-- The rows of one file, with the columns `off`. -/
theorem rows_iff (al : Model.Ptl2fp.Dict) (r2z : ℝ → ℝ) (met : List MetRow) (off : ParRow → ℝ × ℝ) (rows : List ParRow) (ps : List Pair) :
    (∃ ms fp, (rows.mapM fun r => metOf met r.pos) = .ok ms ∧
      applyPtl2fp al ((ms.map MetRow.petal).toFinset.sort (· ≤ ·))
        (List.zipWith (fun (m : MetRow) (p : ℝ × ℝ) => (m.petal, withZ r2z p.1 p.2)) ms (rows.map fun r => Model.Xy2qs.flat2ptl (off r).1 (off r).2)) = .ok fp ∧
      ps = List.zipWith (fun (v : Model.Ptl2fp.V3) (m : MetRow) => { meas := (v 0, v 1), goal := m.xy : Pair }) fp ms) ↔
    List.Forall₂ (Moves al r2z met) (rows.map fun r => (r.pos, off r)) ps := by
  have hpet : ∀ ms : List MetRow, ms.length = rows.length → ∀ k, k ∈ (ms.map MetRow.petal).toFinset.sort (· ≤ ·) ↔
      k ∈ (List.zipWith (fun (m : MetRow) (p : ℝ × ℝ) => (m.petal, withZ r2z p.1 p.2)) ms (rows.map fun r => Model.Xy2qs.flat2ptl (off r).1 (off r).2)).map Prod.fst := by
    intro ms hl k
    have : (List.zipWith (fun (m : MetRow) (p : ℝ × ℝ) => (m.petal, withZ r2z p.1 p.2)) ms (rows.map fun r => Model.Xy2qs.flat2ptl (off r).1 (off r).2)).map Prod.fst
        = ms.map MetRow.petal := by
      clear ps
      induction ms generalizing rows with
      | nil => rfl
      | cons m ms ih =>
        cases rows with
        | nil => simp at hl
        | cons r rows =>
          simp only [List.map_cons, List.zipWith_cons_cons]
          rw [ih rows (by simpa using hl)]
    rw [this, Finset.mem_sort, List.mem_toFinset]
  have hl : ∀ ms : List MetRow, (rows.mapM fun r => metOf met r.pos) = .ok ms → ms.length = rows.length := by
    intro ms h
    exact ((Gpm.mapM_iff _ rows ms).1 h).length_eq.symm
  constructor
  · rintro ⟨ms, fp, h1, h2, rfl⟩
    rw [applied_iff (hpet ms (hl ms h1))] at h2
    rw [Gpm.mapM_iff] at h1
    clear hpet hl
    induction h1 generalizing fp with
    | nil => cases h2; exact .nil
    | @cons r m rows ms hm hms ih =>
      cases h2 with
      | cons hv ht =>
        refine .cons ?_ (ih _ ht)
        exact ⟨m, _, _, _, (metOf_iff met _ m).1 hm, rfl, hv, rfl, rfl⟩
  · intro h
    have : ∃ ms fp, List.Forall₂ (fun (r : ParRow) m => metOf met r.pos = .ok m) rows ms ∧
        List.Forall₂ (fun s o => ptl2fp al s.1 s.2 = .ok o)
          (List.zipWith (fun (m : MetRow) (p : ℝ × ℝ) => (m.petal, withZ r2z p.1 p.2)) ms (rows.map fun r => Model.Xy2qs.flat2ptl (off r).1 (off r).2)) fp ∧
        ps = List.zipWith (fun (v : Model.Ptl2fp.V3) (m : MetRow) => { meas := (v 0, v 1), goal := m.xy : Pair }) fp ms := by
      clear hpet hl
      induction rows generalizing ps with
      | nil => cases h; exact ⟨[], [], .nil, .nil, rfl⟩
      | cons r rows ih =>
        cases h with
        | @cons _ q _ qs hq ht =>
          obtain ⟨ms, fp, i1, i2, rfl⟩ := ih _ ht
          obtain ⟨m, v, x, y, e1, e2, e3, e4, e5⟩ := hq
          refine ⟨m :: ms, v :: fp, .cons ((metOf_iff met _ m).2 e1) i1, ?_, ?_⟩
          · simp only [List.map_cons, List.zipWith_cons_cons]
            refine .cons ?_ i2
            rw [e2]; exact e3
          · rw [List.zipWith_cons_cons, ← e4, ← e5]
    obtain ⟨ms, fp, i1, i2, i3⟩ := this
    have j1 := (Gpm.mapM_iff _ rows ms).2 i1
    exact ⟨ms, fp, j1, (applied_iff (hpet ms (hl ms j1)) fp).2 i2, i3⟩

theorem posFile_iff (al : Model.Ptl2fp.Dict) (r2z : ℝ → ℝ) (met : List MetRow) (maxRms : ℝ) (f : Option ParTable) (o : Option (List Pair)) :
    posFile al r2z met maxRms f = .ok o ↔
      (Adds f ∧ ∃ ps, o = some ps ∧ List.Forall₂ (Moves al r2z met) (usedOf maxRms f) ps) ∨ (¬ Adds f ∧ o = none) := by
  classical
  cases f with
  | none =>
    constructor
    · intro h; injection h with h; exact Or.inr ⟨fun h => h, h.symm⟩
    · rintro (⟨h, -⟩ | ⟨-, rfl⟩)
      · exact h.elim
      · rfl
  | some t =>
    have hfil : t.rows.filter (good maxRms t) = t.rows.filter fun r => decide (Counts maxRms t r) := by
      apply List.filter_congr
      intro r _
      rw [Bool.eq_iff_iff, good_iff, decide_eq_true_eq]
    have key : ∀ off, offsetOf t = some off → (posFile al r2z met maxRms (some t) = .ok o ↔
        ∃ ps, o = some ps ∧ List.Forall₂ (Moves al r2z met) ((t.rows.filter fun r => decide (Counts maxRms t r)).map fun r => (r.pos, off r)) ps) := by
      intro off hoff
      unfold posFile
      simp only [hoff]
      rw [hfil]
      constructor
      · intro h
        obtain ⟨ms, h1, h⟩ := FpMetrology.bind_inv h
        obtain ⟨fp, h2, h⟩ := FpMetrology.bind_inv h
        injection h with h
        exact ⟨_, h.symm, (rows_iff al r2z met off _ _).1 ⟨ms, fp, h1, h2, rfl⟩⟩
      · rintro ⟨ps, rfl, h⟩
        obtain ⟨ms, fp, h1, h2, h3⟩ := (rows_iff al r2z met off _ _).2 h
        rw [h1, h3]
        change (applyPtl2fp _ _ _ >>= _) = _
        rw [h2]
        rfl
    by_cases h1 : t.hasOffset = true
    · have : offsetOf t = some ParRow.xy := by unfold offsetOf; rw [if_pos h1]
      rw [key _ this]
      have ha : Adds (some t) := Or.inl h1
      have hu : usedOf maxRms (some t) = (t.rows.filter fun r => decide (Counts maxRms t r)).map fun r => (r.pos, r.xy) := by
        unfold usedOf; dsimp only; rw [if_pos h1]
      rw [hu]
      exact ⟨fun h => Or.inl ⟨ha, h⟩, fun h => h.elim (fun h => h.2) fun h => absurd ha h.1⟩
    · by_cases h2 : t.hasStatic = true
      · have : offsetOf t = some ParRow.xyStatic := by unfold offsetOf; rw [if_neg h1, if_pos h2]
        rw [key _ this]
        have ha : Adds (some t) := Or.inr h2
        have hu : usedOf maxRms (some t) = (t.rows.filter fun r => decide (Counts maxRms t r)).map fun r => (r.pos, r.xyStatic) := by
          unfold usedOf; dsimp only; rw [if_neg h1, if_pos h2]
        rw [hu]
        exact ⟨fun h => Or.inl ⟨ha, h⟩, fun h => h.elim (fun h => h.2) fun h => absurd ha h.1⟩
      · have : offsetOf t = none := by unfold offsetOf; rw [if_neg h1, if_neg h2]
        have ha : ¬ Adds (some t) := by rintro (h | h); exacts [h1 h, h2 h]
        unfold posFile
        simp only [this]
        constructor
        · intro h; injection h with h; exact Or.inr ⟨ha, h.symm⟩
        · rintro (⟨h, -⟩ | ⟨-, rfl⟩)
          · exact absurd h ha
          · rfl

theorem stack_iff (l : List (Option (List Pair))) (ps : List Pair) : stack l = .ok ps ↔ (∃ x, some x ∈ l) ∧ ps = (l.filterMap id).flatten := by
  unfold stack
  cases h : l.filterMap id with
  | nil =>
    constructor
    · intro h; cases h
    · rintro ⟨⟨x, hx⟩, -⟩
      have : x ∈ l.filterMap id := List.mem_filterMap.2 ⟨_, hx, rfl⟩
      rw [h] at this
      cases this
  | cons a ls =>
    have : a ∈ l.filterMap id := by rw [h]; exact List.mem_cons_self
    obtain ⟨o, ho, e⟩ := List.mem_filterMap.1 this
    simp only [id] at e
    subst e
    constructor
    · intro h; injection h with h; exact ⟨⟨a, ho⟩, h.symm⟩
    · rintro ⟨-, rfl⟩; rfl

end Rf

/-- C88: which rows of the tables of positioner parameters are used, and the two points computed for each.  Files that do not exist or that
have no coordinates are skipped; a row that counts must have a metrology row (the last with its identifier is used) on a petal with an
alignment, otherwise there is no result, and one file at least must have coordinates. -/
theorem C88_rows (al : Model.Ptl2fp.Dict) (r2z : ℝ → ℝ) (met : List MetRow) (maxRms : ℝ) (files : List (Option ParTable)) (pairs : List Pair) :
    gatherPos al r2z met maxRms files = .ok pairs ↔
      (∃ f ∈ files, Rf.Adds f) ∧ List.Forall₂ (Rf.Moves al r2z met) (files.flatMap (Rf.usedOf maxRms)) pairs := by
  have hused : ∀ f, ¬ Rf.Adds f → Rf.usedOf maxRms f = [] := by
    intro f hf
    cases f with
    | none => rfl
    | some t =>
      unfold Rf.usedOf
      dsimp only
      rw [if_neg fun h => hf (Or.inl h), if_neg fun h => hf (Or.inr h)]
  unfold gatherPos
  constructor
  · intro h
    obtain ⟨os, h1, h2⟩ := FpMetrology.bind_inv h
    rw [Gpm.mapM_iff] at h1
    obtain ⟨⟨x, hx⟩, rfl⟩ := (Rf.stack_iff _ _).1 h2
    refine ⟨?_, ?_⟩
    · obtain ⟨f, hf, hfx⟩ := FpMetrology.forall₂_mem' h1 hx
      rcases (Rf.posFile_iff al r2z met maxRms f _).1 hfx with ⟨h, -⟩ | ⟨-, h⟩
      · exact ⟨f, hf, h⟩
      · cases h
    · clear h h2 hx
      induction h1 with
      | nil => exact .nil
      | @cons f o files os hf hfs ih =>
        rw [List.flatMap_cons]
        rcases (Rf.posFile_iff al r2z met maxRms f _).1 hf with ⟨-, ps, rfl, h⟩ | ⟨h, rfl⟩
        · exact Rf.forall₂_append_left.2 ⟨ps, _, rfl, h, ih⟩
        · rw [hused f h]; exact ih
  · rintro ⟨⟨f0, hf0, ha0⟩, h⟩
    have : ∃ os, List.Forall₂ (fun f o => posFile al r2z met maxRms f = .ok o) files os ∧ pairs = (os.filterMap id).flatten := by
      clear hf0
      induction files generalizing pairs with
      | nil => cases h; exact ⟨[], .nil, rfl⟩
      | cons f files ih =>
        rw [List.flatMap_cons] at h
        obtain ⟨y, z, rfl, h1, h2⟩ := Rf.forall₂_append_left.1 h
        obtain ⟨os, i1, rfl⟩ := ih z h2
        by_cases ha : Rf.Adds f
        · exact ⟨some y :: os, .cons ((Rf.posFile_iff al r2z met maxRms f _).2 (Or.inl ⟨ha, y, rfl, h1⟩)) i1, rfl⟩
        · rw [hused f ha] at h1
          cases h1
          exact ⟨none :: os, .cons ((Rf.posFile_iff al r2z met maxRms f _).2 (Or.inr ⟨ha, rfl⟩)) i1, rfl⟩
    obtain ⟨os, h1, rfl⟩ := this
    rw [(Gpm.mapM_iff _ files os).2 h1]
    refine (Rf.stack_iff _ _).2 ⟨?_, rfl⟩
    obtain ⟨o, ho, hfo⟩ := FpMetrology.forall₂_mem h1 hf0
    rcases (Rf.posFile_iff al r2z met maxRms f0 _).1 hfo with ⟨-, ps, rfl, -⟩ | ⟨h, -⟩
    · exact ⟨ps, ho⟩
    · exact absurd ha0 h

/-! ### Circles -/

namespace Rf

/-- The rows of a table of circles. -/
def circles : Option CircTable → List CircRow
  | none => []
  | some t => t.rows

/-- The last row of the other metrology table with the same number `10 LOCATION + PINHOLE_ID`. -/
def SameKey (o : List OtherRow) (r : CircRow) (m : OtherRow) : Prop :=
  ∃ pre post, o = pre ++ m :: post ∧ 10 * m.loc + m.pin = 10 * r.loc + r.pin ∧ ∀ x ∈ post, 10 * x.loc + x.pin ≠ 10 * r.loc + r.pin

theorem otherOf_cases (o : List OtherRow) (r : CircRow) :
    (∃ m, SameKey o r m ∧ otherOf o r = m.xy) ∨ ((∀ m ∈ o, 10 * m.loc + m.pin ≠ 10 * r.loc + r.pin) ∧ otherOf o r = (0, 0)) := by
  unfold otherOf
  cases h : o.reverse.find? fun m => decide (m.loc * 10 + m.pin = r.loc * 10 + r.pin) with
  | some m =>
    left
    refine ⟨m, ?_, rfl⟩
    obtain ⟨h1, as, bs, h2, h3⟩ := List.find?_eq_some_iff_append.1 h
    rw [decide_eq_true_eq] at h1
    refine ⟨bs.reverse, as.reverse, ?_, by linarith, ?_⟩
    · have := congrArg List.reverse h2
      simpa using this
    · intro x hx hk
      have := h3 x (by simpa using hx)
      rw [Bool.not_eq_true', decide_eq_false_iff_not] at this
      exact this (by linarith)
  | none =>
    right
    refine ⟨?_, rfl⟩
    intro m hm hk
    have := List.find?_eq_none.1 h m (by simpa using hm)
    rw [decide_eq_true_eq] at this
    exact this (by linarith)

theorem stack_map {α : Type} (files : List (Option α)) (g : α → List Pair) (ps : List Pair) :
    stack (files.map (Option.map g)) = .ok ps ↔ (∃ t, some t ∈ files) ∧ ps = (files.filterMap id).flatMap g := by
  rw [stack_iff]
  have h1 : (∃ x, some x ∈ files.map (Option.map g)) ↔ ∃ t, some t ∈ files := by
    constructor
    · rintro ⟨x, hx⟩
      obtain ⟨f, hf, e⟩ := List.mem_map.1 hx
      cases f with
      | none => cases e
      | some t => exact ⟨t, hf⟩
    · rintro ⟨t, ht⟩
      exact ⟨g t, List.mem_map.2 ⟨_, ht, rfl⟩⟩
  have h2 : ((files.map (Option.map g)).filterMap id).flatten = (files.filterMap id).flatMap g := by
    clear h1
    induction files with
    | nil => rfl
    | cons f files ih =>
      cases f with
      | none => simpa using ih
      | some t =>
        change g t ++ ((files.map (Option.map g)).filterMap id).flatten = g t ++ (files.filterMap id).flatMap g
        rw [ih]
  rw [h1, h2]

theorem circles_flat (files : List (Option CircTable)) (g : CircRow → Pair) :
    (files.filterMap id).flatMap (fun t => t.rows.map g) = (files.flatMap circles).map g := by
  induction files with
  | nil => rfl
  | cons f files ih =>
    cases f with
    | none => simpa [circles] using ih
    | some t =>
      change t.rows.map g ++ (files.filterMap id).flatMap (fun t => t.rows.map g) = (t.rows ++ files.flatMap circles).map g
      rw [ih, List.map_append]

end Rf

/-- C88: the circles used without another metrology table: all rows of all files that exist; without any file there is no result. -/
theorem C88_theta (files : List (Option CircTable)) (pairs : List Pair) :
    gatherTheta none files = .ok pairs ↔
      (∃ t, some t ∈ files) ∧ pairs = (files.flatMap Rf.circles).map fun r => { meas := r.xy, goal := r.metro : Pair } := by
  unfold gatherTheta
  have : files.mapM (thetaFile none) = .ok (files.map (Option.map fun t : CircTable => t.rows.map fun r => { meas := r.xy, goal := r.metro : Pair })) := by
    refine mapM_ok fun f _ => ?_
    cases f <;> rfl
  rw [this]
  change stack _ = _ ↔ _
  rw [Rf.stack_map, Rf.circles_flat]

/-- C88: the circles used with another metrology table: all rows, each with the position of the last row of the same location and pinhole;
a file without these columns ends the script with exit code 12.  A circle that is not in the other table is not left out: it
gets the position (0, 0), the centre of the focal plane. -/
theorem C88_other (o : List OtherRow) (files : List (Option CircTable)) (pairs : List Pair) :
    (gatherTheta (some o) files = .ok pairs ↔
      (∃ t, some t ∈ files) ∧ (∀ t, some t ∈ files → t.hasKeys = true) ∧
        List.Forall₂ (fun r q => q.meas = r.xy ∧ ((∃ m, Rf.SameKey o r m ∧ q.goal = m.xy) ∨
          ((∀ m ∈ o, 10 * m.loc + m.pin ≠ 10 * r.loc + r.pin) ∧ q.goal = (0, 0)))) (files.flatMap Rf.circles) pairs) ∧
    ((∃ t, some t ∈ files ∧ t.hasKeys = false) → gatherTheta (some o) files = .error (.sysExit 12)) := by
  have hbad : (∃ t, some t ∈ files ∧ t.hasKeys = false) → gatherTheta (some o) files = .error (.sysExit 12) := by
    rintro ⟨t, ht, hk⟩
    have : files.mapM (thetaFile (some o)) = .error (.sysExit 12) := by
      induction files with
      | nil => cases ht
      | cons f files ih =>
        rw [List.mapM_cons]
        have hf : ∀ e, thetaFile (some o) f = .error e → e = .sysExit 12 := by
          intro e he
          cases f with
          | none => cases he
          | some t =>
            unfold thetaFile at he
            dsimp only at he
            split at he
            · cases he
            · injection he with he; exact he.symm
        cases hc : thetaFile (some o) f with
        | error e => rw [hf e hc]; rfl
        | ok x =>
          rcases List.mem_cons.1 ht with rfl | ht
          · unfold thetaFile at hc
            simp [hk] at hc
          · rw [ih ht]; rfl
    unfold gatherTheta
    rw [this]
    rfl
  refine ⟨?_, hbad⟩
  have hrow : ∀ (rows : List CircRow) (ps : List Pair), List.Forall₂ (fun r q => q.meas = r.xy ∧ ((∃ m, Rf.SameKey o r m ∧ q.goal = m.xy) ∨
      ((∀ m ∈ o, 10 * m.loc + m.pin ≠ 10 * r.loc + r.pin) ∧ q.goal = (0, 0)))) rows ps ↔
      ps = rows.map fun r => { meas := r.xy, goal := otherOf o r : Pair } := by
    intro rows ps
    have hdet : ∀ (r : CircRow) (q : Pair), (q.meas = r.xy ∧ ((∃ m, Rf.SameKey o r m ∧ q.goal = m.xy) ∨
        ((∀ m ∈ o, 10 * m.loc + m.pin ≠ 10 * r.loc + r.pin) ∧ q.goal = (0, 0)))) ↔ q = { meas := r.xy, goal := otherOf o r : Pair } := by
      intro r q
      constructor
      · rintro ⟨h1, h2⟩
        have hg : q.goal = otherOf o r := by
          rcases Rf.otherOf_cases o r with ⟨m, hm, e⟩ | ⟨hn, e⟩
          · rcases h2 with ⟨m', hm', e'⟩ | ⟨hn', -⟩
            · rw [e, e']
              obtain ⟨pre, post, a1, a2, a3⟩ := hm
              obtain ⟨pre', post', b1, b2, b3⟩ := hm'
              have hf : ∀ (m : OtherRow) pre post, o = pre ++ m :: post → 10 * m.loc + m.pin = 10 * r.loc + r.pin →
                  (∀ x ∈ post, 10 * x.loc + x.pin ≠ 10 * r.loc + r.pin) →
                  o.reverse.find? (fun m => decide (10 * m.loc + m.pin = 10 * r.loc + r.pin)) = some m := by
                intro m pre post c1 c2 c3
                rw [List.find?_eq_some_iff_append]
                refine ⟨by rw [decide_eq_true_eq]; exact c2, post.reverse, pre.reverse, by rw [c1]; simp, ?_⟩
                intro x hx
                rw [Bool.not_eq_true', decide_eq_false_iff_not]
                exact c3 x (by simpa using hx)
              have u1 := hf m pre post a1 a2 a3
              rw [hf m' pre' post' b1 b2 b3] at u1
              injection u1 with u1
              rw [u1]
            · obtain ⟨pre, post, a1, a2, a3⟩ := hm
              exact absurd a2 (hn' m (by rw [a1]; simp))
          · rcases h2 with ⟨m', ⟨pre, post, a1, a2, a3⟩, e'⟩ | ⟨-, e'⟩
            · exact absurd a2 (hn m' (by rw [a1]; simp))
            · rw [e, e']
        cases q
        dsimp only at h1 hg
        rw [h1, hg]
      · rintro rfl
        exact ⟨rfl, Rf.otherOf_cases o r⟩
    constructor
    · intro h
      induction h with
      | nil => rfl
      | cons hq _ ih => rw [List.map_cons, ← ih, (hdet _ _).1 hq]
    · rintro rfl
      induction rows with
      | nil => exact .nil
      | cons r rows ih => exact .cons ((hdet _ _).2 rfl) ih
  rw [hrow]
  by_cases hall : ∀ t, some t ∈ files → t.hasKeys = true
  · have : files.mapM (thetaFile (some o)) = .ok (files.map (Option.map fun t : CircTable => t.rows.map fun r => { meas := r.xy, goal := otherOf o r : Pair })) := by
      refine mapM_ok fun f hf => ?_
      cases f with
      | none => rfl
      | some t =>
        unfold thetaFile
        dsimp only
        rw [if_pos (hall t hf)]
        rfl
    unfold gatherTheta
    rw [this]
    change stack _ = _ ↔ _
    rw [Rf.stack_map, Rf.circles_flat]
    exact ⟨fun h => ⟨h.1, hall, h.2⟩, fun h => ⟨h.1, h.2.2⟩⟩
  · constructor
    · intro h
      exfalso
      push Not at hall
      obtain ⟨t, ht, hk⟩ := hall
      rw [hbad ⟨t, ht, by simpa using hk⟩] at h
      cases h
    · rintro ⟨-, h, -⟩
      exact absurd h hall

/-! ### From the measured points to the new patch -/

/-- C88: what is fitted are the pixels which the old transformation sends to the measured points (up to the accuracy of its inverse, C24),
with the positions of the metrology, and the patch is sent by way of its old pixels through the new transformation. -/
theorem C88_run (minimise : ((ℝ × ℝ × ℝ × ℝ) → Except PyErr ℝ) → Except PyErr (ℝ × ℝ × ℝ × ℝ)) (t t2 : FVC2FP) (ids : List ℕ)
    (hk : ∀ i ∈ ids, i < 33) (pairs : List Pair) (patch out : Option (List (ℝ × ℝ)))
    (h1 : t.xfvcScale ≠ 0) (h2 : t.yfvcScale ≠ 0) (hs : t.scale ≠ 0) (D : ℝ × ℝ → ℝ × ℝ) (hD : HasDistortion t D)
    (S : Set (ℝ × ℝ)) (L : ℝ) (hL0 : 0 ≤ L) (hL : ∀ a ∈ S, ∀ b ∈ S, dist (D a) (D b) ≤ L * dist a b)
    (hS : ∀ p ∈ pairs.map Pair.meas ++ patch.getD [], (p.1 / 420, p.2 / 420) ∈ S ∧ ∀ q ∈ S, (p.1 / 420, p.2 / 420) - D q ∈ S)
    (h : run minimise t ids pairs patch = .ok (t2, out)) (F F2 : ℝ × ℝ → ℝ × ℝ) (hF : Acts t F) (hF2 : Acts t2 F2) :
    ∃ pix pix' : ℝ × ℝ → ℝ × ℝ,
      refit minimise t ids (pairs.map fun q => (pix q.meas, q.goal)) = .ok t2 ∧
      (∀ q ∈ pairs, dist (F (pix q.meas)) q.meas ≤ 420 * max (L * 1e-12) (L ^ 20 * ‖D (q.meas.1 / 420, q.meas.2 / 420)‖)) ∧
      out = patch.map (fun l => l.map fun p => F2 (pix' p)) ∧
      (∀ p ∈ patch.getD [], dist (F (pix' p)) p ≤ 420 * max (L * 1e-12) (L ^ 20 * ‖D (p.1 / 420, p.2 / 420)‖)) := by
  have inverse : ∀ pts q : List (ℝ × ℝ), t.fp2fvc pts = .ok q → (∀ p ∈ pts, p ∈ pairs.map Pair.meas ++ patch.getD []) →
      ∃ pix : ℝ × ℝ → ℝ × ℝ, q = pts.map pix ∧ ∀ p ∈ pts, dist (F (pix p)) p ≤ 420 * max (L * 1e-12) (L ^ 20 * ‖D (p.1 / 420, p.2 / 420)‖) := by
    intro pts q hq hp
    have hne : pts ≠ [] := by rintro rfl; rw [C24_empty] at hq; cases hq
    obtain ⟨pix, back, a1, a2, a3⟩ := C24_residual t h1 h2 hs D hD pts hne S L hL0 hL fun p hpp => hS p (hp p hpp)
    rw [a1] at hq
    injection hq with hq
    refine ⟨pix, hq.symm, ?_⟩
    rw [hF] at a2
    injection a2 with a2
    rw [List.map_map] at a2
    intro p hpp
    have := List.map_inj_left.1 a2 p hpp
    simp only [Function.comp] at this
    rw [this]
    exact a3 p hpp
  unfold run at h
  obtain ⟨q, hq, h⟩ := FpMetrology.bind_inv h
  obtain ⟨o, ho, h⟩ := FpMetrology.bind_inv h
  obtain ⟨t', ht', h⟩ := FpMetrology.bind_inv h
  obtain ⟨o2, ho2, h⟩ := FpMetrology.bind_inv h
  obtain ⟨e1, e2⟩ := Prod.mk.inj (Except.ok.inj h)
  obtain ⟨pix, rfl, hpix⟩ := inverse _ _ hq fun p hp => List.mem_append_left _ hp
  subst e1 e2
  have hz : (pairs.map Pair.meas |>.map pix).zip (pairs.map Pair.goal) = pairs.map fun q => (pix q.meas, q.goal) := by
    rw [List.map_map, List.zip_map']
    rfl
  rw [hz] at ht'
  cases patch with
  | none =>
    unfold onOption at ho
    injection ho with ho
    subst ho
    unfold onOption at ho2
    injection ho2 with ho2
    exact ⟨pix, pix, ht', fun q hq => hpix _ (List.mem_map.2 ⟨q, hq, rfl⟩), ho2.symm, fun p hp => by cases hp⟩
  | some l =>
    unfold onOption at ho
    obtain ⟨q', hq', ho⟩ := FpMetrology.bind_inv ho
    injection ho with ho
    subst ho
    unfold onOption at ho2
    obtain ⟨q'', hq'', ho2⟩ := FpMetrology.bind_inv ho2
    have ho3 : some q'' = o2 := Except.ok.inj ho2
    obtain ⟨pix', rfl, hpix'⟩ := inverse _ _ hq' fun p hp => List.mem_append_right _ hp
    rw [hF2] at hq''
    injection hq'' with hq''
    refine ⟨pix, pix', ht', fun q hq => hpix _ (List.mem_map.2 ⟨q, hq, rfl⟩), ?_, hpix'⟩
    rw [← ho3, ← hq'', List.map_map]
    rfl

/-- C88: when the metrology agrees with what was measured and the old transformation has no distortion, nothing changes: the pixels of the
measured points keep their positions. -/
theorem C88_unchanged (minimise : ((ℝ × ℝ × ℝ × ℝ) → Except PyErr ℝ) → Except PyErr (ℝ × ℝ × ℝ × ℝ)) (hsc : ∀ f p, minimise f = .ok p → p.1 ≠ 0)
    (t t2 : FVC2FP) (ids : List ℕ) (hk : ∀ i ∈ ids, i < 33) (h4 : ∀ i ∈ [0, 1, 2, 27], i ∈ ids) (hkt : ∀ i ∈ t.zbpolids, i < 33)
    (hz : ∀ c ∈ t.zbcoeffs, c = 0) (h1 : t.xfvcScale ≠ 0) (h2 : t.yfvcScale ≠ 0) (hs : t.scale ≠ 0)
    (pairs : List Pair) (patch out : Option (List (ℝ × ℝ))) (hg : ∀ q ∈ pairs, q.goal = q.meas)
    (h : run minimise t ids pairs patch = .ok (t2, out)) (F F2 : ℝ × ℝ → ℝ × ℝ) (hF : Acts t F) (hF2 : Acts t2 F2) :
    ∀ q ∈ pairs, ∀ u, F u = q.meas → F2 u = q.meas := by
  have hrep : t.zbcoeffs = List.replicate t.zbcoeffs.length 0 := List.eq_replicate_of_mem hz
  have hD : HasDistortion t (fun _ => 0) := by
    intro x y; rw [hrep]; exact C25_zero t.zbpolids hkt _ x y
  obtain ⟨pix, -, hr, hb, -, -⟩ := C88_run minimise t t2 ids hk pairs patch out h1 h2 hs _ hD Set.univ 0 le_rfl (by simp)
    (fun p _ => ⟨trivial, fun _ _ => trivial⟩) h F F2 hF hF2
  have hb' : ∀ q ∈ pairs, F (pix q.meas) = q.meas := by
    intro q hq
    have := hb q hq
    rw [zero_mul, zero_pow (by norm_num), zero_mul, max_self, mul_zero] at this
    exact dist_le_zero.1 this
  have hinj : ∀ u v, F u = F v → u = v := by
    have inv : ∀ u, t.fp2fvc [F u] = .ok [u] := by
      intro u
      obtain ⟨-, q, e1, e2⟩ := C24_exact_linear t h1 h2 hs hkt hz [u] (by simp)
      rw [hF] at e1
      injection e1 with e1
      rw [← e1] at e2
      exact e2
    intro u v e
    have := inv u
    rw [e, inv v] at this
    injection this with this
    injection this with this
    exact this.symm
  have hsim : F = Rf.simil t (t.scale * Real.cos t.rotation) (t.scale * Real.sin t.rotation)
      (t.scale * (t.offsetX * Real.cos t.rotation - t.offsetY * Real.sin t.rotation))
      (t.scale * (t.offsetX * Real.sin t.rotation + t.offsetY * Real.cos t.rotation)) := by
    apply Rf.acts_unique hF
    intro l
    rw [fvc2fp_eq (D := fun _ => 0) t hD]
    congr 1
    apply List.map_congr_left
    intro p _
    have hr : t.reduceFvc p = ((p.1 - t.xfvcOffset) / t.xfvcScale, (p.2 - t.yfvcOffset) / t.yfvcScale) := rfl
    rw [hr, add_zero]
    unfold Rf.simil expandFp lin
    dsimp only
    ext <;> dsimp only <;> ring
  have hex := C88_exact minimise hsc t t2 ids (pairs.map fun q => (pix q.meas, q.goal)) hk h4 _ _ _ _ (by
    intro e he
    obtain ⟨q, hq, rfl⟩ := List.mem_map.1 he
    dsimp only
    rw [← hsim, hb' q hq, hg q hq]) hr F2 hF2
  intro q hq u hu
  have : u = pix q.meas := hinj _ _ (by rw [hu, hb' q hq])
  rw [this, hex _ (List.mem_map.2 ⟨q, hq, rfl⟩)]
  exact hg q hq

/-- C88: the list of fields must have 0, 1, 2 and 27, otherwise the script ends with exit code 12 before reading anything else. -/
theorem C88_fields (minimise : ((ℝ × ℝ × ℝ × ℝ) → Except PyErr ℝ) → Except PyErr (ℝ × ℝ × ℝ × ℝ)) (t : FVC2FP) (arg : PyStr) (ids : List ℕ)
    (hp : Model.Util.parseFibers (some arg) = .ok ids) (al : Model.Ptl2fp.Dict) (r2z : ℝ → ℝ) (met : List MetRow) (maxRms : ℝ)
    (files : List (Option ParTable)) (patch : Option (List (ℝ × ℝ))) (other : Option (List OtherRow)) (circ : List (Option CircTable)) :
    ((∃ i ∈ [0, 1, 2, 27], i ∉ ids) → mainPos minimise t arg al r2z met maxRms files patch = .error (.sysExit 12) ∧
      mainTheta minimise t arg other circ = .error (.sysExit 12)) ∧
    ((∀ i ∈ [0, 1, 2, 27], i ∈ ids) →
      (∀ r, mainPos minimise t arg al r2z met maxRms files patch = .ok r ↔
        ∃ pairs, gatherPos al r2z met maxRms files = .ok pairs ∧ run minimise t ids pairs patch = .ok r) ∧
      (∀ r, mainTheta minimise t arg other circ = .ok r ↔
        ∃ pairs, gatherTheta other circ = .ok pairs ∧ run minimise t ids pairs none = .ok (r, none))) := by
  have hi : idsOf arg = if [0, 1, 2, 27].all fun i => decide (i ∈ ids) then .ok ids else .error (.sysExit 12) := by
    unfold idsOf
    rw [hp]
    rfl
  constructor
  · rintro ⟨i, h4, hn⟩
    have : idsOf arg = .error (.sysExit 12) := by
      rw [hi, if_neg]
      intro hall
      exact hn (by simpa using List.all_eq_true.1 hall i h4)
    unfold mainPos mainTheta
    rw [this]
    exact ⟨rfl, rfl⟩
  · intro h4
    have : idsOf arg = .ok ids := by
      rw [hi, if_pos]
      rw [List.all_eq_true]
      intro i hi
      simpa using h4 i hi
    unfold mainPos mainTheta
    rw [this]
    constructor
    · intro r
      constructor
      · intro h
        exact FpMetrology.bind_inv h
      · rintro ⟨pairs, e1, e2⟩
        change (gatherPos al r2z met maxRms files >>= _) = _
        rw [e1]
        exact e2
    · intro r
      constructor
      · intro h
        change (gatherTheta other circ >>= _) = _ at h
        obtain ⟨pairs, e1, h⟩ := FpMetrology.bind_inv h
        obtain ⟨⟨r', o⟩, e2, h⟩ := FpMetrology.bind_inv h
        injection h with h
        dsimp only at h
        subst h
        refine ⟨pairs, e1, ?_⟩
        rw [e2]
        unfold run at e2
        obtain ⟨q, hq, e2⟩ := FpMetrology.bind_inv e2
        obtain ⟨o', ho, e2⟩ := FpMetrology.bind_inv e2
        obtain ⟨t', ht', e2⟩ := FpMetrology.bind_inv e2
        obtain ⟨o2, ho2, e2⟩ := FpMetrology.bind_inv e2
        unfold onOption at ho
        injection ho with ho
        subst ho
        unfold onOption at ho2
        injection ho2 with ho2
        subst ho2
        injection e2 with e2
        injection e2 with _ e2
        rw [← e2]
      · rintro ⟨pairs, e1, e2⟩
        change (gatherTheta other circ >>= _) = _
        rw [e1]
        change (run minimise t ids pairs none >>= _) = _
        rw [e2]
        rfl

namespace Rf

/-- The distortion with the four fields alone. -/
theorem four_xy (a b c d x y : ℝ) : getZhaoBurgeXY [0, 1, 2, 27] [a, b, c, d] x y =
    .ok (a + c * (rh * (2 * x)) + d * (rh * (2 * y)), b + c * (rh * (2 * y)) + d * (-rh * (2 * x))) := by
  have := C25_sum [0, 1, 2, 27] [a, b, c, d] x y (fun i => if i = 0 then (1, 0) else if i = 1 then (0, 1) else if i = 2 then
    (rh * (2 * x), rh * (2 * y)) else (rh * (2 * y), -rh * (2 * x))) (by
    intro i hi
    simp only [List.mem_cons, List.not_mem_nil, or_false] at hi
    rcases hi with rfl | rfl | rfl | rfl
    · exact ⟨_, term0 x y⟩
    · exact ⟨_, term1 x y⟩
    · exact ⟨_, term2 x y⟩
    · exact ⟨_, term27 x y⟩)
  rw [this]
  simp
  constructor <;> ring

/-- With the four fields alone the image of a point in the middle is in the middle. -/
theorem four_affine (t : FVC2FP) (hz : t.zbpolids = [0, 1, 2, 27]) (hl : t.zbcoeffs.length = 4) (F : ℝ × ℝ → ℝ × ℝ) (hF : Acts t F)
    (x1 x2 x3 y : ℝ) (h : 2 * x1 = x2 + x3) : 2 * (F (x1, y)).1 = (F (x2, y)).1 + (F (x3, y)).1 := by
  obtain ⟨a, b, c, d, e⟩ : ∃ a b c d, t.zbcoeffs = [a, b, c, d] := by
    match t.zbcoeffs, hl with
    | [a, b, c, d], _ => exact ⟨a, b, c, d, rfl⟩
  have hG : Acts t _ := fun l => fvc2fp_eq t (D := fun q => (a + c * (rh * (2 * q.1)) + d * (rh * (2 * q.2)), b + c * (rh * (2 * q.2)) + d * (-rh * (2 * q.1))))
    (fun x y => by rw [hz, e]; exact four_xy a b c d x y) l
  rw [acts_unique hF hG]
  unfold expandFp lin FVC2FP.reduceFvc
  simp only [Prod.fst_add]
  have : x3 = 2 * x1 - x2 := by linarith
  rw [this]
  ring

theorem abs_le_dist2 (p q : ℝ × ℝ) : |p.1 - q.1| ≤ dist2 p q := by
  unfold dist2
  apply Real.abs_le_sqrt
  nlinarith [sq_nonneg (p.2 - q.2)]

end Rf

/-- **C88** (finding) One circle that is not in the other metrology table spoils the refit: two circles that agree exactly with the metrology
give a result (`C88_runs`), with a third one that gets the position (0, 0) the first fit puts at most one of the three within 0.08 mm, and
there is no result. -/
theorem C88_unmatched (minimise : ((ℝ × ℝ × ℝ × ℝ) → Except PyErr ℝ) → Except PyErr (ℝ × ℝ × ℝ × ℝ)) (hsc : ∀ f p, minimise f = .ok p → p.1 ≠ 0)
    (t t2 : FVC2FP) (hx : t.xfvcScale = -3000) (hx0 : t.xfvcOffset = 3000) (hy : t.yfvcScale = 3000) (hy0 : t.yfvcOffset = 3000) :
    refit minimise t [0, 1, 2, 27] [((2000, 3000), (140, 0)), ((4000, 3000), (-140, 0)), ((0, 3000), (0, 0))] ≠ .ok t2 := by
  have hk : ∀ i ∈ [0, 1, 2, 27], i < 33 := by decide
  intro h
  obtain ⟨t1, F1, h1, hF1, h2⟩ := (Rf.refit_iff hk).1 h
  refine C88_too_few minimise t t1 t2 _ _ hk F1 h1 hF1 ?_ h
  obtain ⟨n1, z1, l1⟩ := Rf.onePass_keeps h1
  have hs1 : t1.scale ≠ 0 := by
    obtain ⟨p, c, hp, -, rfl⟩ := (Rf.onePass_iff minimise _ t1 _).1 h1
    exact hsc _ p hp
  have haff := Rf.four_affine t1 z1 (by rw [l1]; rfl) F1 hF1 2000 4000 0 3000 (by norm_num)
  obtain ⟨cs, hcs, hG⟩ := Rf.similarity_reached t1 (by rw [z1]; exact hk) (by rw [z1]; simp) hs1 (1 / 4) 0 (-1 / 12) 0
  have hopt := Rf.onePass_optimal (t := { t with zbpolids := [0, 1, 2, 27] }) hk h1 hF1 cs (by rw [hcs, z1]) hG
  have hn : Rf.SameNorm t t1 := n1
  unfold Rf.sumSq at hopt
  simp only [List.map_cons, List.map_nil, List.sum_cons, List.sum_nil, add_zero] at hopt
  have hG1 : Rf.simil t1 (1 / 4) 0 (-1 / 12) 0 (2000, 3000) = (0, 0) := by
    unfold Rf.simil
    dsimp only
    rw [hn.1, hn.2.1, hn.2.2.1, hn.2.2.2, hx, hx0, hy, hy0]
    norm_num
  have hG2 : Rf.simil t1 (1 / 4) 0 (-1 / 12) 0 (4000, 3000) = (-70, 0) := by
    unfold Rf.simil
    dsimp only
    rw [hn.1, hn.2.1, hn.2.2.1, hn.2.2.2, hx, hx0, hy, hy0]
    norm_num
  have hG3 : Rf.simil t1 (1 / 4) 0 (-1 / 12) 0 (0, 3000) = (70, 0) := by
    unfold Rf.simil
    dsimp only
    rw [hn.1, hn.2.1, hn.2.2.1, hn.2.2.2, hx, hx0, hy, hy0]
    norm_num
  have sq2 : ∀ p q : ℝ × ℝ, dist2 p q ^ 2 = (p.1 - q.1) ^ 2 + (p.2 - q.2) ^ 2 := by
    intro p q
    unfold dist2
    exact Real.sq_sqrt (by positivity)
  rw [hG1, hG2, hG3] at hopt
  simp only [sq2] at hopt
  have b1 := Rf.abs_le_dist2 (F1 (2000, 3000)) (140, 0)
  have b2 := Rf.abs_le_dist2 (F1 (4000, 3000)) (-140, 0)
  have b3 := Rf.abs_le_dist2 (F1 (0, 3000)) (0, 0)
  dsimp only at b1 b2 b3
  unfold Rf.near
  generalize hu1 : (F1 (2000, 3000)).1 = u1 at *
  generalize hu2 : (F1 (4000, 3000)).1 = u2 at *
  generalize hu3 : (F1 (0, 3000)).1 = u3 at *
  have hle : (u1 - 140) ^ 2 + (u2 + 140) ^ 2 + u3 ^ 2 ≤ 29400 := by
    nlinarith [sq_nonneg (F1 (2000, 3000)).2, sq_nonneg (F1 (4000, 3000)).2, sq_nonneg (F1 (0, 3000)).2]
  by_cases c1 : dist2 (F1 (2000, 3000)) (140, 0) < 0.08
  · have d1 := abs_lt.1 (lt_of_le_of_lt b1 c1)
    have c2 : ¬ dist2 (F1 (4000, 3000)) (-140, 0) < 0.08 := by
      intro c2
      have d2 := abs_lt.1 (lt_of_le_of_lt b2 c2)
      nlinarith
    have c3 : ¬ dist2 (F1 (0, 3000)) (0, 0) < 0.08 := by
      intro c3
      have d3 := abs_lt.1 (lt_of_le_of_lt b3 c3)
      nlinarith
    simp [c1, c2, c3]
  · by_cases c2 : dist2 (F1 (4000, 3000)) (-140, 0) < 0.08
    · have d2 := abs_lt.1 (lt_of_le_of_lt b2 c2)
      have c3 : ¬ dist2 (F1 (0, 3000)) (0, 0) < 0.08 := by
        intro c3
        have d3 := abs_lt.1 (lt_of_le_of_lt b3 c3)
        nlinarith
      simp [c1, c2, c3]
    · by_cases c3 : dist2 (F1 (0, 3000)) (0, 0) < 0.08 <;> simp [c1, c2, c3]

/-- **C88** (finding) With another list of fields than the one in the file the first fit starts from the wrong distortion, because the stored
coefficients are assigned to the new fields by position: a pure shear (field 3) in a file with the usual thirteen fields becomes a rotation
(field 27) with the list 0, 1, 2, 27. -/
theorem C88_shifted (c x y : ℝ) :
    getZhaoBurgeXY [0, 1, 2, 3, 4, 5, 6, 9, 20, 27, 28, 29, 30] [0, 0, 0, c, 0, 0, 0, 0, 0, 0, 0, 0, 0] x y = .ok (c * (rh * (2 * y)), c * (rh * (2 * x))) ∧
    getZhaoBurgeXY [0, 1, 2, 27] [0, 0, 0, c, 0, 0, 0, 0, 0, 0, 0, 0, 0] x y = .ok (c * (rh * (2 * y)), c * (-rh * (2 * x))) := by
  constructor
  · obtain ⟨F, hF⟩ := fields_exist [0, 1, 2, 3, 4, 5, 6, 9, 20, 27, 28, 29, 30] (by decide) x y
    rw [C25_sum _ _ _ _ F hF]
    obtain ⟨k, h3⟩ := hF 3 (by simp)
    have e : getZhaoBurgeTerm 3 x y = .ok (rh * getZ 3 x y, rh * getZ 2 x y, Kind.S) := rfl
    rw [e, Rf.z2, Rf.z3] at h3
    injection h3 with h3
    injection h3 with a1 a2
    injection a2 with a2 a3
    simp [← a1, ← a2]
  · have := Rf.four_xy 0 0 0 c x y
    have e : getZhaoBurgeXY [0, 1, 2, 27] [0, 0, 0, c, 0, 0, 0, 0, 0, 0, 0, 0, 0] x y = getZhaoBurgeXY [0, 1, 2, 27] [0, 0, 0, c] x y := rfl
    rw [e, this]
    simp

/-- A table with one row that counts and one that does not, and its points. -/
example : ∃ (al : Model.Ptl2fp.Dict) (met : List MetRow) (files : List (Option ParTable)) (pairs : List Pair),
    gatherPos al (fun _ => 0) met 0.1 files = .ok pairs ∧ pairs.length = 1 := by
  let m : MetRow := { dev := "M00001".toList, petal := 0, xy := (1, 2) }
  let a : Model.Ptl2fp.Alignment := { alpha := 0, beta := 0, gamma := 0, Tx := 0, Ty := 0, Tz := 0 }
  let r : ParRow := { pos := "M00001".toList, flags := 0, err := 0.05, xy := (1, 2), xyStatic := (0, 0) }
  let r' : ParRow := { pos := "M00002".toList, flags := 0, err := 0.2, xy := (1, 2), xyStatic := (0, 0) }
  let t : ParTable := { hasFlags := true, hasErr := true, hasOffset := true, hasStatic := false, rows := [r, r'] }
  let p := Model.Xy2qs.flat2ptl 1 2
  refine ⟨fun k => if k = 0 then some a else none, [m], [none, some t],
    [{ meas := ((a.R.mulVec ![p.1, p.2, 0] + a.T) 0, (a.R.mulVec ![p.1, p.2, 0] + a.T) 1), goal := (1, 2) }], ?_, rfl⟩
  rw [C88_rows]
  refine ⟨⟨some t, by simp, Or.inl rfl⟩, ?_⟩
  have h1 : Rf.Counts 0.1 t r := ⟨fun _ => rfl, fun _ _ => by norm_num [r]⟩
  have h2 : ¬ Rf.Counts 0.1 t r' := by
    intro h
    have := h.2 rfl (by norm_num)
    norm_num [r'] at this
  have hu : [none, some t].flatMap (Rf.usedOf 0.1) = [("M00001".toList, (1, 2))] := by
    have : Rf.usedOf 0.1 (some t) = [("M00001".toList, (1, 2))] := by
      unfold Rf.usedOf
      dsimp only
      rw [if_pos rfl]
      simp [t, r, r'] at h1 h2 ⊢
      simp [h1, h2]
    rw [List.flatMap_cons, List.flatMap_cons, this]
    rfl
  rw [hu]
  refine .cons ⟨m, _, p.1, p.2, ⟨[], [], rfl, rfl, by simp⟩, rfl, rfl, rfl, rfl⟩ .nil

end Verif.Props
