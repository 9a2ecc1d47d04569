import Verif.Props.Tighten
import Verif.Props.Fvc2fp
import Verif.Props.ZhaoBurge

/-!
# C36: the camera fit is the best one
-/

namespace Verif.Props.FvcOptimal
open Verif.Py Verif.Model.FvcFit Verif.Model.Fvc2fp Verif.Model.ZhaoBurge Verif.Lemmas.Fvc2fp Verif.Props Verif.Props.Ff

/-- Sum of the squared distances between the fiducial spots, transformed with `F`, and their metrology. -/
noncomputable def sumSq (F : ℝ × ℝ → ℝ × ℝ) (spots : List Spot) (metrology : List Metro) : ℝ :=
  ((spots.filter fun s => decide (isFid s)).map fun s => miss F metrology s ^ 2).sum

/-- The transformation acts point by point as `F`. -/
def Acts (t : FVC2FP) (F : ℝ × ℝ → ℝ × ℝ) : Prop := ∀ l, t.fvc2fp l = .ok (l.map F)

/-- The same pixel normalisation and distortion fields. -/
def SameFrame (t u : FVC2FP) : Prop :=
  u.xfvcScale = t.xfvcScale ∧ u.yfvcScale = t.yfvcScale ∧ u.xfvcOffset = t.xfvcOffset ∧ u.yfvcOffset = t.yfvcOffset ∧
  u.zbpolids = t.zbpolids

theorem acts_eq {t : FVC2FP} {D F : ℝ × ℝ → ℝ × ℝ} (hD : HasDistortion t D) (hF : Acts t F) (p : ℝ × ℝ) :
    F p = expandFp (lin t (t.reduceFvc p) + D (lin t (t.reduceFvc p))) := by
  have := hF [p]
  rw [fvc2fp_eq t hD] at this
  simpa using this.symm

/-- Sum of squares in reduced coordinates. -/
noncomputable def cost (t : FVC2FP) (D : ℝ × ℝ → ℝ × ℝ) (l : List FitPt) : ℝ :=
  (l.map fun q => ((lin t (q.x, q.y) + D (lin t (q.x, q.y))).1 - q.xp) ^ 2 +
    ((lin t (q.x, q.y) + D (lin t (q.x, q.y))).2 - q.yp) ^ 2).sum

/-- The pairs passed to the fit. -/
noncomputable def mkPt (t : FVC2FP) (s : Spot) (m : Metro) : FitPt :=
  { x := (t.reduceFvc (s.xpix, s.ypix)).1, y := (t.reduceFvc (s.xpix, s.ypix)).2, xp := (reduceFp (m.x, m.y)).1,
    yp := (reduceFp (m.x, m.y)).2 }

theorem reduce_same {t u : FVC2FP} (h : SameFrame t u) (p : ℝ × ℝ) : u.reduceFvc p = t.reduceFvc p := by
  obtain ⟨h1, h2, h3, h4, -⟩ := h
  unfold FVC2FP.reduceFvc
  rw [h1, h2, h3, h4]

theorem cost_eq {t u : FVC2FP} (hu : SameFrame t u) {D F : ℝ × ℝ → ℝ × ℝ} (hD : HasDistortion u D) (hF : Acts u F)
    {metrology : List Metro} (hm : (metrology.map fun m => (m.loc, m.pin)).Nodup) {fid : List Spot} {met : List Metro}
    (hsame : List.Forall₂ same fid met) (hin : ∀ m ∈ met, m ∈ metrology) (hfid : ∀ s ∈ fid, isFid s) :
    (fid.map fun s => miss F metrology s ^ 2).sum = 420 ^ 2 * cost u D (List.zipWith (mkPt t) fid met) := by
  induction hsame with
  | nil => simp [cost]
  | @cons s m fid met hsm _ ih =>
    have he : entry metrology s = (m.x, m.y, m.z) := by
      unfold entry
      rw [if_pos (hfid s List.mem_cons_self), find_same hm (hin m List.mem_cons_self) hsm]
    have ih := ih (fun m h => hin m (List.mem_cons_of_mem _ h)) (fun s h => hfid s (List.mem_cons_of_mem _ h))
    unfold cost at ih ⊢
    rw [List.map_cons, List.sum_cons, ih, List.zipWith_cons_cons, List.map_cons, List.sum_cons, mul_add]
    congr 1
    unfold miss
    rw [Real.sq_sqrt (by positivity), he, acts_eq hD hF, reduce_same hu]
    unfold expandFp mkPt reduceFp
    simp only
    ring

theorem objective_eq (t : FVC2FP) (D : ℝ × ℝ → ℝ × ℝ) (hD : HasDistortion t D) (fs fr : Option ℝ) (l : List FitPt) (p : ℝ × ℝ × ℝ × ℝ) :
    objective (t.zbpolids, t.zbcoeffs) fs fr l p =
      .ok (cost { t with scale := fs.getD p.1, rotation := fr.getD p.2.1, offsetX := p.2.2.1, offsetY := p.2.2.2 } D l) := by
  unfold objective
  dsimp only
  rw [mapM_ok (g := fun q : FitPt => ((lin { t with scale := fs.getD p.1, rotation := fr.getD p.2.1, offsetX := p.2.2.1, offsetY := p.2.2.2 } (q.x, q.y) + D (lin { t with scale := fs.getD p.1, rotation := fr.getD p.2.1, offsetX := p.2.2.1, offsetY := p.2.2.2 } (q.x, q.y))).1 - q.xp) ^ 2 +
    ((lin { t with scale := fs.getD p.1, rotation := fr.getD p.2.1, offsetX := p.2.2.1, offsetY := p.2.2.2 } (q.x, q.y) + D (lin { t with scale := fs.getD p.1, rotation := fr.getD p.2.1, offsetX := p.2.2.1, offsetY := p.2.2.2 } (q.x, q.y))).2 - q.yp) ^ 2)]
  · rfl
  · intro q _
    unfold transform
    simp only [bind, Except.bind, pure, Except.pure, hD _ _]
    rfl

/-- **C36** If the minimiser returns minima only, no transformation with the same distortion (and the given scale or
rotation, when fixed) brings the fiducials closer to their metrology than the fitted one; after a fit of the distortion
no other coefficients, with the fitted scale, rotation and offset, do either. -/
theorem C36_optimal (env : Env) (hs : SortOk env.sortS env.sortM)
    (hmin : ∀ (f : ℝ × ℝ × ℝ × ℝ → ℝ) p, env.minimise (fun q => .ok (f q)) = .ok p → ∀ q, f p ≤ f q)
    (t t' : FVC2FP) (o : Opts) (g : Goodness) (spots : List Spot) (metrology : List Metro)
    (hk : ∀ i ∈ t.zbpolids, i < 33) (hc : t.zbcoeffs.length = t.zbpolids.length)
    (hn : ((fids spots).map fun s => (s.loc, s.pin)).Nodup)
    (hm : (metrology.map fun m => (m.loc, m.pin)).Nodup) (hl : (fids spots).length ≠ 1) (x : Option (List OutSpot))
    (h : fit env t o spots metrology = .ok (t', g, x)) (F : ℝ × ℝ → ℝ × ℝ) (hF : Acts t' F) :
    SameFrame t t' ∧
    (∀ u G, SameFrame t u → u.zbcoeffs = t.zbcoeffs → (o.fixedScale = true → u.scale = t.scale) →
      (o.fixedRotation = true → u.rotation = t.rotation) → Acts u G → sumSq F spots metrology ≤ sumSq G spots metrology) ∧
    (o.zbfit = true → ∀ cs G, cs.length = t.zbpolids.length → Acts { t' with zbcoeffs := cs } G →
      sumSq F spots metrology ≤ sumSq G spots metrology) := by
  unfold fit at h
  obtain ⟨⟨fid, met⟩, h1, h⟩ := Lemmas.bind_ok h
  dsimp only at h
  obtain ⟨r, h2, h⟩ := Lemmas.bind_ok h
  obtain ⟨g', -, h⟩ := Lemmas.bind_ok h
  have ht : t' = { t with scale := r.scale, rotation := r.rotation, offsetX := r.offsetX, offsetY := r.offsetY,
                          zbcoeffs := r.zb.getD t.zbcoeffs } := by
    split_ifs at h with hu
    · obtain ⟨out, -, h⟩ := Lemmas.bind_ok h
      simp only [pure, Except.pure, Except.ok.injEq, Prod.mk.injEq] at h
      exact h.1.symm
    · simp only [pure, Except.pure, Except.ok.injEq, Prod.mk.injEq] at h
      exact h.1.symm
  clear h
  obtain ⟨hsame, hperm, hsub⟩ := C36_pairs env.sortS env.sortM hs spots metrology hn hm hl fid met h1
  have hin : ∀ m ∈ met, m ∈ metrology := fun m hm => hsub.subset hm
  have hfid : ∀ s ∈ fid, isFid s := fun s hs => by
    have := hperm.mem_iff.1 hs
    simpa using (List.mem_filter.1 this).2
  have hsum : ∀ u D G, SameFrame t u → HasDistortion u D → Acts u G →
      sumSq G spots metrology = 420 ^ 2 * cost u D (List.zipWith (mkPt t) fid met) := by
    intro u D G hu hD hG
    rw [← cost_eq hu hD hG hm hsame hin hfid]
    exact ((hperm.map _).sum_eq).symm
  have hfr : SameFrame t t' := by rw [ht]; exact ⟨rfl, rfl, rfl, rfl, rfl⟩
  obtain ⟨D, hD⟩ := C24_distortion t hk
  change fitScaleRotationOffset env.minimise o.zbfit (t.zbpolids, t.zbcoeffs) _ _ (List.zipWith (mkPt t) fid met) = _ at h2
  generalize hpts : List.zipWith (mkPt t) fid met = pts at h2 hsum
  unfold fitScaleRotationOffset at h2
  obtain ⟨p, hp, h2⟩ := Lemmas.bind_ok h2
  -- the minimum over scale, rotation and offset
  have hobj := funext (objective_eq t D hD (if o.fixedScale then some t.scale else none) (if o.fixedRotation then some t.rotation else none) pts)
  rw [hobj] at hp
  have hmn := hmin _ p hp
  let v : FVC2FP := { t with scale := (if o.fixedScale then some t.scale else none).getD p.1,
                             rotation := (if o.fixedRotation then some t.rotation else none).getD p.2.1,
                             offsetX := p.2.2.1, offsetY := p.2.2.2 }
  have hv : ∀ u, SameFrame t u → u.zbcoeffs = t.zbcoeffs → (o.fixedScale = true → u.scale = t.scale) →
      (o.fixedRotation = true → u.rotation = t.rotation) → cost v D pts ≤ cost u D pts := by
    intro u hu hz h3 h4
    have := hmn (u.scale, u.rotation, u.offsetX, u.offsetY)
    refine this.trans (le_of_eq ?_)
    congr 1
    obtain ⟨k1, k2, k3, k4, k5⟩ := hu
    have e1 : (if o.fixedScale then some t.scale else none).getD u.scale = u.scale := by
      split_ifs with hh
      · exact (h3 hh).symm
      · rfl
    have e2 : (if o.fixedRotation then some t.rotation else none).getD u.rotation = u.rotation := by
      split_ifs with hh
      · exact (h4 hh).symm
      · rfl
    simp only [e1, e2]
    cases u
    simp_all
  cases hz : o.zbfit with
  | false =>
    rw [hz] at h2
    simp only [Bool.false_eq_true, if_false, pure, Except.pure, Except.ok.injEq] at h2
    have htv : t' = v := by rw [ht, ← h2]; rfl
    refine ⟨hfr, ?_, fun hh => by cases hh⟩
    intro u G hu hzu h3 h4 hG
    have hDu : HasDistortion u D := by intro a b; rw [hu.2.2.2.2, hzu]; exact hD a b
    have hDt : HasDistortion t' D := by rw [htv]; exact hD
    rw [hsum t' D F hfr hDt hF, hsum u D G hu hDu hG, htv]
    have := hv u hu hzu h3 h4
    linarith
  | true =>
    rw [hz] at h2
    simp only [if_true] at h2
    obtain ⟨l', hl', h2⟩ := Lemmas.bind_ok h2
    obtain ⟨c, hcf, h2⟩ := Lemmas.bind_ok h2
    simp only [pure, Except.pure, Except.ok.injEq] at h2
    have hl2 : l' = pts.map fun q => { x := (lin v (q.x, q.y)).1, y := (lin v (q.x, q.y)).2, xp := q.xp, yp := q.yp : FitPt } := by
      rw [mapM_ok (g := fun q : FitPt => { x := (lin v (q.x, q.y)).1, y := (lin v (q.x, q.y)).2, xp := q.xp, yp := q.yp : FitPt })] at hl'
      · injection hl' with hl'; exact hl'.symm
      · intro q _
        rfl
    have htv : t' = { v with zbcoeffs := List.ofFn c } := by rw [ht, ← h2]; rfl
    -- cost with any coefficients
    have hres : ∀ (d : Fin t.zbpolids.length → ℝ) (E : ℝ × ℝ → ℝ × ℝ), HasDistortion { v with zbcoeffs := List.ofFn d } E →
        cost { v with zbcoeffs := List.ofFn d } E pts = residual t.zbpolids d l' := by
      intro d E hE
      rw [hl2]
      unfold cost residual
      rw [List.map_map]
      congr 1
      apply List.map_congr_left
      intro q _
      simp only [Function.comp]
      have : getZhaoBurgeXY t.zbpolids (List.ofFn d) (lin v (q.x, q.y)).1 (lin v (q.x, q.y)).2 = .ok (E (lin v (q.x, q.y))) := hE _ _
      rw [this]
      have hlin : lin { v with zbcoeffs := List.ofFn d } (q.x, q.y) = lin v (q.x, q.y) := rfl
      rw [hlin]
      simp only [Prod.fst_add, Prod.snd_add]
      ring
    obtain ⟨Dt, hDt⟩ := C24_distortion t' (by rw [hfr.2.2.2.2]; exact hk)
    have hopt : ∀ cs E, cs.length = t.zbpolids.length → HasDistortion { v with zbcoeffs := cs } E →
        cost t' Dt pts ≤ cost { v with zbcoeffs := cs } E pts := by
      intro cs E hcs hE
      obtain ⟨d, rfl⟩ : ∃ d : Fin t.zbpolids.length → ℝ, cs = List.ofFn d := by
        refine ⟨fun i => cs[i.1]'(by rw [hcs]; exact i.2), ?_⟩
        apply List.ext_getElem
        · simp [hcs]
        · intro i h1 h2
          simp
      rw [hres d E hE]
      have hDt' := hDt
      rw [htv] at hDt' ⊢
      rw [hres c Dt hDt']
      exact C62_optimal t.zbpolids hk l' d c hcf
    refine ⟨hfr, ?_, ?_⟩
    · intro u G hu hzu h3 h4 hG
      have hDu : HasDistortion u D := by intro a b; rw [hu.2.2.2.2, hzu]; exact hD a b
      rw [hsum t' Dt F hfr hDt hF, hsum u D G hu hDu hG]
      have k1 := hv u hu hzu h3 h4
      have k2 : cost t' Dt pts ≤ cost v D pts := hopt t.zbcoeffs D hc hD
      linarith
    · intro _ cs G hcs hG
      have hf2 : SameFrame t { t' with zbcoeffs := cs } := by rw [htv]; exact ⟨rfl, rfl, rfl, rfl, rfl⟩
      obtain ⟨E, hE⟩ := C24_distortion { t' with zbcoeffs := cs } (by rw [hf2.2.2.2.2]; exact hk)
      rw [hsum t' Dt F hfr hDt hF, hsum _ E G hf2 hE hG]
      have hE' : HasDistortion { v with zbcoeffs := cs } E := by rw [htv] at hE; exact hE
      have k := hopt cs E hcs hE'
      rw [htv] at k ⊢
      have k' : cost { v with zbcoeffs := List.ofFn c } Dt pts ≤ cost { v with zbcoeffs := cs } E pts := k
      show _ ≤ 420 ^ 2 * cost { v with zbcoeffs := cs } E pts
      linarith

/-- **C36** So for exact data (metrology equal to the spots under some transformation with the same distortion, and the fixed scale
and rotation if any) the fitted transformation sends every fiducial to its metrology. -/
theorem C36_exact (env : Env) (hs : SortOk env.sortS env.sortM)
    (hmin : ∀ (f : ℝ × ℝ × ℝ × ℝ → ℝ) p, env.minimise (fun q => .ok (f q)) = .ok p → ∀ q, f p ≤ f q)
    (t t' u : FVC2FP) (o : Opts) (g : Goodness) (spots : List Spot) (metrology : List Metro)
    (hk : ∀ i ∈ t.zbpolids, i < 33) (hc : t.zbcoeffs.length = t.zbpolids.length)
    (hn : ((fids spots).map fun s => (s.loc, s.pin)).Nodup)
    (hm : (metrology.map fun m => (m.loc, m.pin)).Nodup) (hl : (fids spots).length ≠ 1) (x : Option (List OutSpot))
    (h : fit env t o spots metrology = .ok (t', g, x)) (F G : ℝ × ℝ → ℝ × ℝ) (hF : Acts t' F) (hu : SameFrame t u)
    (hzu : u.zbcoeffs = t.zbcoeffs) (h3 : o.fixedScale = true → u.scale = t.scale)
    (h4 : o.fixedRotation = true → u.rotation = t.rotation) (hG : Acts u G)
    (hex : ∀ s ∈ spots, isFid s → G (s.xpix, s.ypix) = ((entry metrology s).1, (entry metrology s).2.1)) :
    ∀ s ∈ spots, isFid s → F (s.xpix, s.ypix) = ((entry metrology s).1, (entry metrology s).2.1) := by
  have key := (C36_optimal env hs hmin t t' o g spots metrology hk hc hn hm hl x h F hF).2.1 u G hu hzu h3 h4 hG
  have hz : sumSq G spots metrology = 0 := by
    unfold sumSq
    rw [List.map_congr_left (g := fun _ => (0 : ℝ))]
    · simp
    · intro s hs
      obtain ⟨h1, h2⟩ := List.mem_filter.1 hs
      unfold miss
      rw [hex s h1 (by simpa using h2)]
      simp
  rw [hz] at key
  intro s hs hf
  have hmem : s ∈ spots.filter fun s => decide (isFid s) := List.mem_filter.2 ⟨hs, by simpa using hf⟩
  have hle : miss F metrology s ^ 2 ≤ sumSq F spots metrology :=
    List.single_le_sum (by
      intro a ha
      obtain ⟨b, -, rfl⟩ := List.mem_map.1 ha
      positivity) _ (List.mem_map.2 ⟨s, hmem, rfl⟩)
  have h0 : miss F metrology s ^ 2 = 0 := le_antisymm (hle.trans key) (by positivity)
  unfold miss at h0
  rw [Real.sq_sqrt (by positivity)] at h0
  have a1 := sq_nonneg ((entry metrology s).1 - (F (s.xpix, s.ypix)).1)
  have a2 := sq_nonneg ((entry metrology s).2.1 - (F (s.xpix, s.ypix)).2)
  have b1 : (entry metrology s).1 - (F (s.xpix, s.ypix)).1 = 0 := pow_eq_zero_iff two_ne_zero |>.1 (by linarith)
  have b2 : (entry metrology s).2.1 - (F (s.xpix, s.ypix)).2 = 0 := pow_eq_zero_iff two_ne_zero |>.1 (by linarith)
  ext
  · simp only; linarith
  · simp only; linarith

open Classical in
/-- A minimiser as assumed: it returns a minimum if there is one and fails otherwise. -/
example : ∃ m : ((ℝ × ℝ × ℝ × ℝ) → Except PyErr ℝ) → Except PyErr (ℝ × ℝ × ℝ × ℝ),
    (∀ (f : ℝ × ℝ × ℝ × ℝ → ℝ) p, m (fun q => .ok (f q)) = .ok p → ∀ q, f p ≤ f q) ∧
    (∀ f : ℝ × ℝ × ℝ × ℝ → ℝ, (∃ p, ∀ q, f p ≤ f q) → ∃ p, m (fun q => .ok (f q)) = .ok p) := by
  refine ⟨fun F => if h : ∃ (f : ℝ × ℝ × ℝ × ℝ → ℝ) (p : ℝ × ℝ × ℝ × ℝ), F = (fun q => .ok (f q)) ∧ ∀ q, f p ≤ f q then
    .ok h.choose_spec.choose else .error .runtimeError, ?_, ?_⟩
  · intro f p h q
    dsimp only at h
    split_ifs at h with hx
    injection h with h
    obtain ⟨e, hp⟩ := hx.choose_spec.choose_spec
    have e' : f = hx.choose := by
      funext a
      have := congrFun e a
      injection this
    have k1 : f p = hx.choose p := congrFun e' p
    have k2 : f q = hx.choose q := congrFun e' q
    rw [k1, k2, ← h]
    exact hp q
  · rintro f ⟨p, hp⟩
    have hx : ∃ (f' : ℝ × ℝ × ℝ × ℝ → ℝ) (p : ℝ × ℝ × ℝ × ℝ), (fun q => (.ok (f q) : Except PyErr ℝ)) = (fun q => .ok (f' q)) ∧ ∀ q, f' p ≤ f' q :=
      ⟨f, p, rfl, hp⟩
    exact ⟨_, dif_pos hx⟩

end Verif.Props.FvcOptimal
