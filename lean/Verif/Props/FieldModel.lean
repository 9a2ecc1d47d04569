import Verif.Props.FieldFit
import Verif.Props.Sky
import Verif.Lemmas.Pos2ptl

/-!
# C68–C70: guide star catalogue, field fit and field rotation
-/

namespace Verif.Props.FieldModel
open Verif.Py Verif.Model.Trig Verif.Model.Radec2tan Verif.Model.SimpleCorr Verif.Model.FieldFit Verif.Lemmas.SimpleCorr
  Verif.Lemmas.LinAlg Verif.Lemmas.Trig Verif.Lemmas.Sky Verif.Spec Verif.Props Verif.Props.FieldFit Classical

/-! ### C68: catalogue -/

/-- Distance in arcsec between the measured and the catalogue position of a row, the catalogue
position being (`a`, `d`), without regard to the period of right ascension. -/
noncomputable def sepArcsec (r : CatRow) (a d : ℝ) : ℝ :=
  3600 * Real.sqrt (((r.ra - a) * Real.cos (d * Real.pi / 180)) ^ 2 + (r.dec - d) ^ 2)

/-- Catalogue position of a row after `dt` years: motions in milliarcsec per year, along the parallel for right
ascension; unknown motions count as zero. -/
noncomputable def posAfter (r : CatRow) (dt : ℝ) : ℝ × ℝ :=
  (r.raGaia + dt * r.pmra.getD 0 / (3600000 * Real.cos (r.decGaia * Real.pi / 180)), r.decGaia + dt * r.pmdec.getD 0 / 3600000)

theorem matchDist_eq (r : CatRow) : matchDist r = sepArcsec r r.raGaia r.decGaia := by
  unfold matchDist sepArcsec hypot
  rw [cosd_eq, show ((r.ra - r.raGaia) * cosd r.decGaia * 3600) ^ 2 + ((r.dec - r.decGaia) * 3600) ^ 2 =
    3600 ^ 2 * (((r.ra - r.raGaia) * cosd r.decGaia) ^ 2 + (r.dec - r.decGaia) ^ 2) by ring,
    Real.sqrt_mul (by norm_num), Real.sqrt_sq (by norm_num)]

theorem withPm_eq (y : ℝ) (r : CatRow) :
    withPm y r = { r with raGaia := (posAfter r (y - r.refEpoch)).1, decGaia := (posAfter r (y - r.refEpoch)).2 } := by
  unfold withPm posAfter
  dsimp only
  rw [cosd_eq, div_div]

/-- **C68** A catalogue with proper motions, read with a known time: the result holds, in catalogue order,
exactly the rows whose measured position is closer than `max_sep_arcsec` to the catalogue position at
the time of observation, with this position and everything else unchanged; if there are none a RuntimeError is raised. -/
theorem C68_proper_motion (jyear : ℝ → ℝ) (mjd : Option ℝ) (cat : Catalog) (maxSep m : ℝ) (h1 : cat.hasX = true)
    (h2 : cat.hasGaia = true) (h3 : cat.hasPm = true)
    (hm : (∃ l, cat.mjdObs = some l ∧ m = l.sum / l.length) ∨ (cat.mjdObs = none ∧ mjd = some m)) :
    let pos := fun r : CatRow => posAfter r (jyear m - r.refEpoch)
    let good := cat.rows.filter fun r => sepArcsec r (pos r).1 (pos r).2 < maxSep
    readGuideStars jyear mjd cat maxSep =
      (if good = [] then .error .runtimeError else
        .ok (good.map fun r => { r with raGaia := (pos r).1, decGaia := (pos r).2 }), some m) := by
  intro pos good
  have hmjd : mjdAfter mjd cat = some m := by
    unfold mjdAfter
    rcases hm with ⟨l, hl, rfl⟩ | ⟨hl, hm⟩
    · rw [hl]; rfl
    · rw [hl, hm]
  have hsel : (cat.rows.map (withPm (jyear m))).filter (fun r => matchDist r < maxSep) =
      good.map fun r => { r with raGaia := (pos r).1, decGaia := (pos r).2 } := by
    rw [List.filter_map]
    have e1 : (fun r : CatRow => ({ r with raGaia := (pos r).1, decGaia := (pos r).2 } : CatRow)) = withPm (jyear m) := by
      funext r; rw [withPm_eq]
    rw [e1]
    congr 1
    apply List.filter_congr
    intro r _
    simp only [Function.comp, matchDist_eq, withPm_eq]
    rfl
  unfold readGuideStars
  dsimp only
  rw [h1, h2, h3, hmjd]
  simp only [Bool.not_true, Bool.or_self, Bool.false_eq_true, if_false, if_true]
  rw [hsel]
  by_cases hg : good = []
  · simp [hg]
  · rw [if_neg (by simpa using hg), if_neg hg]

/-- **C68** Without proper motion columns the catalogue positions are used as they are. -/
theorem C68_no_motion (jyear : ℝ → ℝ) (mjd : Option ℝ) (cat : Catalog) (maxSep : ℝ) (h1 : cat.hasX = true)
    (h2 : cat.hasGaia = true) (h3 : cat.hasPm = false) :
    let good := cat.rows.filter fun r => sepArcsec r r.raGaia r.decGaia < maxSep
    (readGuideStars jyear mjd cat maxSep).1 = if good = [] then .error .runtimeError else .ok good := by
  intro good
  unfold readGuideStars
  dsimp only
  rw [h1, h2, h3]
  simp only [Bool.not_true, Bool.or_self, Bool.false_eq_true, if_false]
  simp only [matchDist_eq, List.length_eq_zero_iff]
  by_cases hg : good = []
  · rw [if_pos hg, if_pos hg]
  · rw [if_neg hg, if_neg hg]

/-- **C68** A catalogue without the needed columns is refused, and so is one with proper motions when the
time is not known. -/
theorem C68_refused (jyear : ℝ → ℝ) (mjd : Option ℝ) (cat : Catalog) (maxSep : ℝ)
    (h : cat.hasX = false ∨ cat.hasGaia = false ∨ (cat.hasPm = true ∧ cat.mjdObs = none ∧ mjd = none)) :
    (readGuideStars jyear mjd cat maxSep).1 = .error .runtimeError := by
  unfold readGuideStars
  dsimp only
  by_cases h0 : (!cat.hasX || !cat.hasGaia) = true
  · rw [if_pos h0]
  · rw [if_neg h0]
    rcases h with h | h | ⟨h1, h2, h3⟩
    · simp [h] at h0
    · simp [h] at h0
    · rw [h1]
      have : mjdAfter mjd cat = none := by unfold mjdAfter; rw [h2, h3]
      rw [this]
      rfl

/-- **C68** The time in the catalogue replaces the one of the object, even if the catalogue is refused. -/
theorem C68_mjd (jyear : ℝ → ℝ) (mjd : Option ℝ) (cat : Catalog) (maxSep : ℝ) (l : List ℝ) (h : cat.mjdObs = some l) :
    (readGuideStars jyear mjd cat maxSep).2 = some (l.sum / l.length) := by
  unfold readGuideStars
  dsimp only
  have : mjdAfter mjd cat = some (l.sum / l.length) := by unfold mjdAfter; rw [h]; rfl
  rw [this]
  dsimp only
  split_ifs <;> rfl

/-- **C68 disagreement**: near right ascension zero good stars are lost: a star measured at 359.9999 degrees with
catalogue position 0.0001 degrees (0.72 arcsec apart) is dropped, while the same two positions
shifted by one degree are kept. -/
theorem C68_wrap (jyear : ℝ → ℝ) (mjd : Option ℝ) :
    (readGuideStars jyear mjd ⟨none, true, true, false, [⟨359.9999, 0, 0.0001, 0, none, none, 2015.5⟩]⟩ 2).1 =
      .error .runtimeError ∧
    (readGuideStars jyear mjd ⟨none, true, true, false, [⟨0.9999, 0, 1.0001, 0, none, none, 2015.5⟩]⟩ 2).1 =
      .ok [⟨0.9999, 0, 1.0001, 0, none, none, 2015.5⟩] := by
  rw [C68_no_motion _ _ _ _ rfl rfl rfl, C68_no_motion _ _ _ _ rfl rfl rfl]
  have a : ¬ sepArcsec ⟨359.9999, 0, 0.0001, 0, none, none, 2015.5⟩ 0.0001 0 < 2 := by
    unfold sepArcsec
    simp only [zero_mul, zero_div, Real.cos_zero, mul_one, sub_self]
    rw [show ((359.9999 : ℝ) - 0.0001) ^ 2 + 0 ^ 2 = (359.9999 - 0.0001) ^ 2 by ring, Real.sqrt_sq (by norm_num)]
    norm_num
  have b : sepArcsec ⟨0.9999, 0, 1.0001, 0, none, none, 2015.5⟩ 1.0001 0 < 2 := by
    unfold sepArcsec
    simp only [zero_mul, zero_div, Real.cos_zero, mul_one, sub_self]
    rw [show ((0.9999 : ℝ) - 1.0001) ^ 2 + 0 ^ 2 = (1.0001 - 0.9999) ^ 2 by ring, Real.sqrt_sq (by norm_num)]
    norm_num
  simp [List.filter_cons, a, b]

/-- The hypotheses of `C68_proper_motion` hold for a catalogue of one star, which is kept. -/
example (jyear : ℝ → ℝ) : ∃ cat : Catalog, cat.hasX = true ∧ cat.hasGaia = true ∧ cat.hasPm = true ∧ cat.mjdObs = some [5, 7] ∧
    ∃ r, (readGuideStars jyear none cat 2) = (.ok [r], some 6) := by
  let row : CatRow := ⟨10, 0, 10, 0, none, none, 2015.5⟩
  refine ⟨⟨some [5, 7], true, true, true, [row]⟩, rfl, rfl, rfl, rfl,
    { row with raGaia := (posAfter row (jyear 6 - row.refEpoch)).1, decGaia := (posAfter row (jyear 6 - row.refEpoch)).2 }, ?_⟩
  rw [C68_proper_motion jyear none _ 2 6 rfl rfl rfl (Or.inl ⟨[5, 7], rfl, by norm_num⟩)]
  have h : sepArcsec row (posAfter row (jyear 6 - row.refEpoch)).1 (posAfter row (jyear 6 - row.refEpoch)).2 < 2 := by
    simp [sepArcsec, posAfter, row]
  simp only [List.filter_cons, h, decide_true, if_true, List.filter_nil, List.map_cons, List.map_nil]
  rfl

/-! ### C69: fit of the field -/

/-- What the code should use: the argument if given, else the first known alternative. -/
def firstOf (l : List (Option ℝ)) : Option ℝ := l.findSome? id

/-- **C69** The time is the argument, else the one of the object, else the mean time in the catalogue; the
hexapod angle is the argument, else the one of the object; the sidereal time is the argument, else the
one of the object, else computed from the time. If time or hexapod angle is not known a
RuntimeError is raised. -/
theorem C69_inputs (env : Env) (f : Field) (stars : List Star) (mjdObs : Option (List ℝ)) (mjd hexrot lst : Option ℝ) :
    let m := firstOf [mjd, f.mjd, mjdObs.map fun l => l.sum / l.length]
    let h := firstOf [hexrot, f.hexrot]
    ((m = none ∨ h = none) → fitTancorr env f stars mjdObs mjd hexrot lst = .error .runtimeError) ∧
    (∀ g, fitTancorr env f stars mjdObs mjd hexrot lst = .ok g →
      g.mjd = m ∧ g.hexrot = h ∧ g.lst = firstOf [lst, f.lst, m.map env.mjd2lst]) := by
  intro m h
  have key : inputs env f mjdObs mjd hexrot lst = match m, h with
      | some a, some b => .ok (a, b, (firstOf [lst, f.lst]).getD (env.mjd2lst a))
      | _, _ => .error .runtimeError := by
    unfold inputs
    cases e1 : mjd <;> cases e2 : f.mjd <;> cases e3 : mjdObs <;> cases e4 : hexrot <;> cases e5 : f.hexrot <;>
      cases e6 : lst <;> cases e7 : f.lst <;> simp [m, h, e1, e2, e3, e4, e5, e6, e7, firstOf, mean, bind, Except.bind, pure, Except.pure]
  constructor
  · intro hn
    unfold fitTancorr
    rw [key]
    rcases hn with hn | hn
    · rw [hn]; rfl
    · rw [hn]; cases m <;> rfl
  · intro g hg
    unfold fitTancorr at hg
    rw [key] at hg
    cases hm : m with
    | none => rw [hm] at hg; simp [bind, Except.bind] at hg
    | some a =>
      cases hh : h with
      | none => rw [hm, hh] at hg; simp [bind, Except.bind] at hg
      | some b =>
        rw [hm, hh] at hg
        obtain ⟨⟨m', h', t'⟩, h0, hg⟩ := Verif.Lemmas.bind_ok hg
        simp only [Except.ok.injEq, Prod.mk.injEq] at h0
        obtain ⟨rfl, rfl, rfl⟩ := h0
        dsimp only at hg
        obtain ⟨⟨tel, c⟩, -, hg⟩ := Verif.Lemmas.bind_ok hg
        dsimp only at hg
        obtain ⟨r, -, hg⟩ := Verif.Lemmas.bind_ok hg
        simp only [pure, Except.pure, Except.ok.injEq] at hg
        subst hg
        refine ⟨rfl, rfl, ?_⟩
        cases lst <;> cases e : f.lst <;> simp [firstOf]

/-- **C69 disagreement**: an object used for a second exposure keeps the sidereal time of the first one:
with a new time as argument and no sidereal time, the sidereal time of the new time is not used. -/
theorem C69_stale_lst (env : Env) (f g : Field) (stars : List Star) (mjdObs : Option (List ℝ)) (m2 : ℝ) (t : ℝ)
    (hf : f.lst = some t) (hg : fitTancorr env f stars mjdObs (some m2) none none = .ok g) :
    g.mjd = some m2 ∧ g.lst = some t := by
  obtain ⟨h1, -, h3⟩ := (C69_inputs env f stars mjdObs (some m2) none none).2 g hg
  refine ⟨h1, ?_⟩
  rw [h3, hf]
  simp [firstOf]

/-- Stars on a petal with camera metrology (focal plane x not zero). -/
noncomputable def measured (env : Env) (stars : List Star) : List Star :=
  stars.filter fun s => (env.gfa2fp s.petal s.pix).1 ≠ 0

/-- Tangent plane position of a star from the camera. -/
noncomputable def tanPos (env : Env) (s : Star) : ℝ × ℝ := env.fp2tan (env.gfa2fp s.petal s.pix)

/-- Exact observation: for the measured stars the position computed from the sky is the linear map `M` of the
measured position; the stars are centred on the pointing, in the unit disc and not on one line. -/
structure Exact (env : Env) (f : Field) (stars : List Star) (m h t : ℝ) (M : Affine) : Prop where
  exact : ∀ s ∈ measured env stars, env.radec2tan s.gaia (f.ra, f.dec) m t h = mat M (tanPos env s)
  meanX : ((measured env stars).map fun s => (tanPos env s).1).sum = 0
  meanY : ((measured env stars).map fun s => (tanPos env s).2).sum = 0
  disc : ∀ s ∈ measured env stars, (tanPos env s).1 ^ 2 + (tanPos env s).2 ^ 2 ≤ 1
  spread : ¬ OnLine ((measured env stars).map (tanPos env))

theorem usable_eq (env : Env) (stars : List Star) :
    usable env stars = (measured env stars).map fun s => (s, env.gfa2fp s.petal s.pix) := by
  unfold usable measured
  rw [List.filter_map]
  rfl

theorem pairs_eq (env : Env) (m h t : ℝ) (stars : List Star) (tel : ℝ × ℝ) :
    pairsAt env m h t (usable env stars) tel = (measured env stars).map fun s =>
      ⟨(tanPos env s).1, (tanPos env s).2, (env.radec2tan s.gaia tel m t h).1, (env.radec2tan s.gaia tel m t h).2⟩ := by
  unfold pairsAt
  rw [usable_eq, List.map_map]
  rfl

theorem pairs_centred {env : Env} {f : Field} {stars : List Star} {m h t : ℝ} {M : Affine} (H : Exact env f stars m h t M) :
    Centred M (pairsAt env m h t (usable env stars) (f.ra, f.dec)) := by
  rw [pairs_eq]
  refine ⟨?_, ?_, ?_, ?_, ?_⟩
  · intro q hq
    obtain ⟨s, hs, rfl⟩ := List.mem_map.1 hq
    exact H.exact s hs
  · rw [List.map_map]; exact H.meanX
  · rw [List.map_map]; exact H.meanY
  · intro q hq
    obtain ⟨s, hs, rfl⟩ := List.mem_map.1 hq
    exact H.disc s hs
  · unfold firsts
    rw [List.map_map]
    exact H.spread

theorem fp2radec_ok {env : Env} {f : Field} {m h t : ℝ} (h1 : f.mjd = some m) (h2 : f.hexrot = some h) (h3 : f.lst = some t)
    (p : ℝ × ℝ) : fp2radec env f p = .ok ((scales f).map fun s =>
      env.tan2radec (inst2sky s.1 s.2.1 s.2.2.1 s.2.2.2 (env.fp2tan p)) (f.ra, f.dec) m t h) := by
  unfold fp2radec
  rw [h1, h2, h3]

theorem fieldrot_ok {env : Env} {f : Field} {m h t : ℝ} (h1 : f.mjd = some m) (h2 : f.hexrot = some h) (h3 : f.lst = some t) :
    ∃ r, computeFieldrot env f = .ok r := by
  unfold computeFieldrot
  simp only [fp2radec_ok h1 h2 h3, h3, crossPts, List.mapM_cons, List.mapM_nil, bind, Except.bind, pure, Except.pure]
  exact ⟨_, rfl⟩

/-- The fit of exact data does not move the pointing. -/
theorem fit_exact {env : Env} {f : Field} {stars : List Star} {m h t : ℝ} {M : Affine} (H : Exact env f stars m h t M)
    (mjdObs : Option (List ℝ)) : ∃ c r, tanFit (pairsAt env m h t (usable env stars) (f.ra, f.dec)) = .ok c ∧
      fitTancorr env f stars mjdObs (some m) (some h) (some t) = .ok
        { ra := f.ra, dec := f.dec, mjd := some m, lst := some t, hexrot := some h, sxx := c.sxx, syy := c.syy, sxy := c.sxy,
          zp := c.rotDeg, fieldrot := r, nstars := (measured env stars).length, rmsArcsec := 0 } := by
  obtain ⟨c, hc, c1, c2, c3, c4⟩ : ∃ c, tanFit (pairsAt env m h t (usable env stars) (f.ra, f.dec)) = .ok c ∧ c.dha = 0 ∧
      c.ddec = 0 ∧ c.nstars = (measured env stars).length ∧ c.rmsArcsec = 0 := by
    refine ⟨_, centred_fit (pairs_centred H), rfl, rfl, ?_, rfl⟩
    simp only [pairs_eq, List.length_map]
  have hstep : pointStep env m h t (usable env stars) (f.ra, f.dec) = .ok ((f.ra, f.dec), c) := by
    unfold pointStep
    rw [hc]
    simp only [bind, Except.bind, pure, Except.pure, c1, c2, sub_zero, zero_div, add_zero]
  have hloop : pointLoop env m h t (usable env stars) (f.ra, f.dec) = .ok ((f.ra, f.dec), c) := by
    unfold pointLoop
    rw [hstep]
    simp only [bind, Except.bind]
    rw [hstep]
    simp only
    exact hstep
  have hin : inputs env f mjdObs (some m) (some h) (some t) = .ok (m, h, t) := rfl
  obtain ⟨r, hr⟩ := fieldrot_ok (env := env)
    (f := ⟨f.ra, f.dec, some m, some t, some h, c.sxx, c.syy, c.sxy, c.rotDeg, f.fieldrot, c.nstars, c.rmsArcsec⟩) rfl rfl rfl
  refine ⟨c, r, hc, ?_⟩
  unfold fitTancorr
  rw [hin]
  simp only [bind, Except.bind]
  rw [hloop]
  dsimp only
  rw [hr]
  simp only [pure, Except.pure, c3, c4]

/-- **C69** Exact data with some rotation: the fit keeps the pointing, counts the stars with metrology, reports rms 0, and
afterwards `radec2fp` sends every such star to its measured focal plane position and `fp2radec` sends this back to
the star (for transforms that invert each other there). -/
theorem C69_exact (env : Env) (f : Field) (stars : List Star) (m h t : ℝ) (M : Affine) (H : Exact env f stars m h t M)
    (h1 : M.m12 ≠ M.m21) (h2 : M.m11 + M.m22 ≠ 0) (hdet : M.m11 * M.m22 - M.m12 * M.m21 ≠ 0)
    (himg : ∀ s ∈ measured env stars, (mat M (tanPos env s)).1 ^ 2 + (mat M (tanPos env s)).2 ^ 2 ≤ 1) (mjdObs : Option (List ℝ)) :
    ∃ g, fitTancorr env f stars mjdObs (some m) (some h) (some t) = .ok g ∧ g.ra = f.ra ∧ g.dec = f.dec ∧
      g.nstars = (measured env stars).length ∧ g.rmsArcsec = 0 ∧
      ∀ s ∈ measured env stars,
        (env.tan2fp (tanPos env s) = env.gfa2fp s.petal s.pix →
          radec2fp env g s.gaia = .ok (some (env.gfa2fp s.petal s.pix))) ∧
        (env.tan2radec (env.radec2tan s.gaia (f.ra, f.dec) m t h) (f.ra, f.dec) m t h = s.gaia →
          fp2radec env g (env.gfa2fp s.petal s.pix) = .ok (some s.gaia)) := by
  obtain ⟨c', deg, sxx, syy, sxy, hc', e1, e2, e3, e4, e5, e6, e7, e8, happ⟩ := C67_exact M _ (pairs_centred H) h1 h2
  obtain ⟨c, r, hc, hfit⟩ := fit_exact H mjdObs
  rw [hc] at hc'
  injection hc' with hcc
  subst hcc
  refine ⟨_, hfit, rfl, rfl, rfl, rfl, fun s hs => ?_⟩
  have hT : ∀ p : ℝ × ℝ, p.1 ^ 2 + p.2 ^ 2 ≤ 1 → inst2sky sxx syy sxy deg p = mat M p := by
    intro p hp
    rw [← happ p hp]
    unfold inst2sky TanCorr.apply
    rw [e1, e2]
  have hdet' : sxx * syy - sxy ^ 2 ≠ 0 := by
    have a := hT (1, 0) (by norm_num)
    have b := hT (0, 1) (by norm_num)
    have key : M.m11 * M.m22 - M.m12 * M.m21 = sxx * syy - sxy ^ 2 := by
      unfold inst2sky at a b
      rw [apply_zero (p := ((1 : ℝ), (0 : ℝ))) (by norm_num)] at a
      rw [apply_zero (p := ((0 : ℝ), (1 : ℝ))) (by norm_num)] at b
      unfold lin rot2deg mat at a b
      simp only [mul_one, mul_zero, sub_zero, add_zero, zero_sub, zero_add, Prod.mk.injEq] at a b
      obtain ⟨a1, a2⟩ := a
      obtain ⟨b1, b2⟩ := b
      rw [← a1, ← a2, ← b1, ← b2]
      linear_combination (sxx * syy - sxy ^ 2) * sq_cosd_sind deg
    rwa [← key]
  have hinv : sky2inst sxx syy sxy deg (mat M (tanPos env s)) = tanPos env s := by
    have := (C21_field_correction ⟨0, 0, sxx, syy, sxy, deg, 0, 0⟩ rfl rfl hdet' (tanPos env s).1 (tanPos env s).2 (H.disc s hs)).1
    have hh : (⟨0, 0, sxx, syy, sxy, deg, 0, 0⟩ : TanCorr).apply (tanPos env s).1 (tanPos env s).2 = mat M (tanPos env s) :=
      hT _ (H.disc s hs)
    rw [hh] at this
    exact this (himg s hs)
  constructor
  · intro hfp
    unfold radec2fp scales
    simp only [e5, e6, e7, e8]
    simp only [H.exact s hs, bind, Option.bind, pure, Option.map]
    rw [hinv, hfp]
  · intro hsky
    unfold fp2radec scales
    simp only [e5, e6, e7, e8]
    simp only [bind, Option.bind, pure, Option.map]
    have : env.fp2tan (env.gfa2fp s.petal s.pix) = tanPos env s := rfl
    rw [this, hT _ (H.disc s hs), ← H.exact s hs, hsky]

/-- **C69 disagreement**: with exact data without rotation the fitted model is useless: every result of
`radec2fp` and `fp2radec` is NaN. -/
theorem C69_no_rotation_nan (env : Env) (f : Field) (stars : List Star) (m h t : ℝ) (M : Affine) (H : Exact env f stars m h t M)
    (h1 : M.m12 = M.m21) (mjdObs : Option (List ℝ)) :
    ∃ g, fitTancorr env f stars mjdObs (some m) (some h) (some t) = .ok g ∧
      ∀ p, radec2fp env g p = .ok none ∧ fp2radec env g p = .ok none := by
  obtain ⟨c, r, hc, hfit⟩ := fit_exact H mjdObs
  obtain ⟨c', hc', hn, -⟩ := C67_nan M _ (pairs_centred H)
  rw [hc] at hc'
  injection hc' with hcc
  subst hcc
  refine ⟨_, hfit, fun p => ?_⟩
  have hs : ∀ a b d : Option ℝ, scales { f with ra := f.ra, dec := f.dec, mjd := some m, lst := some t, hexrot := some h, sxx := a, syy := c.syy, sxy := b, zp := d, fieldrot := r, nstars := (measured env stars).length, rmsArcsec := 0 } = none := by
    intro a b d
    unfold scales
    simp only [hn h1]
    cases a <;> rfl
  unfold radec2fp fp2radec
  simp only [hs]
  exact ⟨rfl, rfl⟩

/-- Cameras and sky with the same coordinates up to a linear map. -/
noncomputable def flatEnv : Env :=
  ⟨fun _ p => p, id, id, fun g _ _ _ _ => mat ⟨0, 0, 1, -1, 1, 1⟩ g, fun g _ _ _ _ => mat ⟨0, 0, 1 / 2, 1 / 2, -1 / 2, 1 / 2⟩ g, id⟩

/-- Four stars around the centre. -/
noncomputable def fourStars : List Star :=
  [(1, 1), (-1, 1), (-1, -1), (1, -1)].map fun p : ℝ × ℝ => ⟨(p.1 / 100, p.2 / 100), 0, (p.1 / 100, p.2 / 100)⟩

/-- The hypotheses of `C69_exact` can be met. -/
theorem fourStars_exact (f : Field) (m h t : ℝ) : Exact flatEnv f fourStars m h t ⟨0, 0, 1, -1, 1, 1⟩ ∧
    (∀ s ∈ measured flatEnv fourStars, (mat ⟨0, 0, 1, -1, 1, 1⟩ (tanPos flatEnv s)).1 ^ 2 +
      (mat ⟨0, 0, 1, -1, 1, 1⟩ (tanPos flatEnv s)).2 ^ 2 ≤ 1) ∧
    ∀ s ∈ measured flatEnv fourStars, flatEnv.tan2fp (tanPos flatEnv s) = flatEnv.gfa2fp s.petal s.pix ∧
      flatEnv.tan2radec (flatEnv.radec2tan s.gaia (f.ra, f.dec) m t h) (f.ra, f.dec) m t h = s.gaia := by
  have hm : measured flatEnv fourStars = fourStars := by
    unfold measured
    rw [List.filter_eq_self]
    intro s hs
    obtain ⟨p, hp, rfl⟩ := List.mem_map.1 hs
    simp only [List.mem_cons, List.not_mem_nil, or_false] at hp
    rcases hp with rfl | rfl | rfl | rfl <;> norm_num [flatEnv]
  rw [hm]
  have hd : ∀ s ∈ fourStars, (tanPos flatEnv s) = s.gaia ∧ s.gaia.1 ^ 2 + s.gaia.2 ^ 2 ≤ 1 / 5000 := by
    intro s hs
    obtain ⟨p, hp, rfl⟩ := List.mem_map.1 hs
    refine ⟨rfl, ?_⟩
    simp only [List.mem_cons, List.not_mem_nil, or_false] at hp
    rcases hp with rfl | rfl | rfl | rfl <;> norm_num
  refine ⟨⟨?_, ?_, ?_, ?_, ?_⟩, ?_, ?_⟩
  · rw [hm]; intro s hs; rw [(hd s hs).1]; rfl
  · rw [hm]; norm_num [fourStars, tanPos, flatEnv]
  · rw [hm]; norm_num [fourStars, tanPos, flatEnv]
  · rw [hm]; intro s hs; rw [(hd s hs).1]; linarith [(hd s hs).2]
  · rw [hm]
    rintro ⟨a, b, c, hne, h⟩
    have h1 := h (1 / 100, 1 / 100) (by simp [fourStars, tanPos, flatEnv])
    have h2 := h (-1 / 100, 1 / 100) (by simp [fourStars, tanPos, flatEnv])
    have h3 := h (-1 / 100, -1 / 100) (by simp [fourStars, tanPos, flatEnv])
    simp only at h1 h2 h3
    exact hne (by rw [show a = 0 by linarith, show b = 0 by linarith, show c = 0 by linarith])
  · intro s hs
    rw [(hd s hs).1]
    have := (hd s hs).2
    simp only [mat]
    nlinarith
  · intro s hs
    obtain ⟨p, hp, rfl⟩ := List.mem_map.1 hs
    refine ⟨rfl, ?_⟩
    simp only [flatEnv, mat]
    ext <;> simp only <;> ring

/-! ### C70: field rotation -/

/-- **C70** If the sky positions of the test cross, seen from the sky position of its centre, are the cross turned
by `θ` degrees and scaled, the reported field rotation is the sine of `-θ`, times 57.3 degrees. -/
theorem C70_value (env : Env) (f : Field) (m h t : ℝ) (h1 : f.mjd = some m) (h2 : f.hexrot = some h) (h3 : f.lst = some t)
    (P : ℝ × ℝ → ℝ × ℝ) (hP : ∀ q, q = (0, 0) ∨ q ∈ crossPts → fp2radec env f (env.tan2fp q) = .ok (some (P q))) (k θ : ℝ) (hk : 0 < k)
    (hrot : ∀ q ∈ crossPts, hadec2xy (t - (P q).1, (P q).2) (t - (P (0, 0)).1, (P (0, 0)).2) =
      (k * (rigid θ 0 0 q).1, k * (rigid θ 0 0 q).2)) :
    computeFieldrot env f = .ok (some (-Real.sin (θ * Real.pi / 180) * (180 / Real.pi))) := by
  have hturn : ∀ q ∈ crossPts, turn q (k * (rigid θ 0 0 q).1, k * (rigid θ 0 0 q).2) = some (-Real.sin (θ * Real.pi / 180)) := by
    intro q hq
    have hr : 0 < radians 1 := by unfold radians; positivity
    have hq0 : 0 < q.1 ^ 2 + q.2 ^ 2 := by
      simp only [crossPts, List.mem_cons, List.not_mem_nil, or_false] at hq
      have := pow_pos hr 2
      rcases hq with rfl | rfl | rfl | rfl <;> simp only <;> nlinarith
    unfold turn fdiv rigid
    have hcs := Real.sin_sq_add_cos_sq (θ * Real.pi / 180)
    generalize Real.sin (θ * Real.pi / 180) = S at *
    generalize Real.cos (θ * Real.pi / 180) = C at *
    have e : (q.1 ^ 2 + q.2 ^ 2) * ((k * (C * q.1 - S * q.2 + 0)) ^ 2 + (k * (S * q.1 + C * q.2 + 0)) ^ 2) =
        (k * (q.1 ^ 2 + q.2 ^ 2)) ^ 2 := by
      linear_combination k ^ 2 * (q.1 ^ 2 + q.2 ^ 2) ^ 2 * hcs
    simp only [e]
    rw [Real.sqrt_sq (by positivity), if_neg (by positivity)]
    congr 1
    field_simp
    ring
  have hc := hP (0, 0) (Or.inl rfl)
  have hp1 := hP (radians 1, 0) (Or.inr (by simp [crossPts]))
  have hp2 := hP (0, radians 1) (Or.inr (by simp [crossPts]))
  have hp3 := hP (-radians 1, 0) (Or.inr (by simp [crossPts]))
  have hp4 := hP (0, -radians 1) (Or.inr (by simp [crossPts]))
  have hall : crossPts.mapM (fun q => fp2radec env f (env.tan2fp q)) = .ok (crossPts.map fun q => some (P q)) := by
    simp only [crossPts, List.mapM_cons, List.mapM_nil, hp1, hp2, hp3, hp4, bind, Except.bind, pure, Except.pure, List.map_cons, List.map_nil]
  have hid : (crossPts.map fun q => some (P q)).mapM id = some (crossPts.map P) := by
    simp [crossPts]
  unfold computeFieldrot
  dsimp only
  rw [hc, hall, h3]
  simp only [bind, Except.bind, pure, Except.pure, Option.bind]
  rw [hid]
  dsimp only
  have hz : List.zipWith turn crossPts ((crossPts.map P).map fun p => hadec2xy (t - p.1, p.2) (t - (P (0, 0)).1, (P (0, 0)).2)) =
      crossPts.map fun _ => some (-Real.sin (θ * Real.pi / 180)) := by
    rw [List.map_map, List.zipWith_map_right, List.zipWith_self]
    apply List.map_congr_left
    intro q hq
    simp only [Function.comp]
    rw [hrot q hq, hturn q hq]
  rw [hz]
  simp [crossPts, mean, degrees]
  ring_nf

/-- The hypotheses of `C70_value` hold for a field turned by any angle. -/
example (θ : ℝ) : ∃ (env : Env) (f : Field) (P : ℝ × ℝ → ℝ × ℝ), f.mjd = some 0 ∧ f.hexrot = some 0 ∧ f.lst = some 0 ∧
    (∀ q, q = (0, 0) ∨ q ∈ crossPts → fp2radec env f (env.tan2fp q) = .ok (some (P q))) ∧
    ∀ q ∈ crossPts, hadec2xy (0 - (P q).1, (P q).2) (0 - (P (0, 0)).1, (P (0, 0)).2) =
      (1 * (rigid θ 0 0 q).1, 1 * (rigid θ 0 0 q).2) := by
  refine ⟨⟨fun _ p => p, id, id, fun g _ _ _ _ => g, fun g tel _ t _ => (t - (xy2hadec g tel).1, (xy2hadec g tel).2), id⟩,
    ⟨0, 0, some 0, some 0, some 0, some 1, some 1, some 0, some θ, none, 0, 0⟩,
    fun q => (0 - (xy2hadec (inst2sky 1 1 0 θ q) (0, 0)).1, (xy2hadec (inst2sky 1 1 0 θ q) (0, 0)).2), rfl, rfl, rfl, ?_, ?_⟩
  · intro q _
    rfl
  · have hz : inst2sky 1 1 0 θ (0, 0) = (0, 0) := by
      unfold inst2sky
      rw [apply_zero (p := ((0 : ℝ), (0 : ℝ))) (by norm_num)]
      simp [lin, rot2deg]
    have h0 : xy2hadec (0, 0) (0, 0) = (0, 0) := by
      have e := lonlat_xyz (p := ((0 : ℝ), (0 : ℝ))) (by norm_num) (by norm_num)
      have hv : xyz ((0 : ℝ), (0 : ℝ)) = ⟨1, 0, 0⟩ := by
        simp [xyz, getXYZ, cosd, sind, radians]
      rw [hv] at e
      unfold xy2hadec
      simp only [M3.app, dot, cosd, sind, radians]
      norm_num
      rw [e]
      simp [put360, fmod]
    intro q hq
    have hr : 0 < radians 1 ∧ radians 1 ≤ 1 := by
      unfold radians
      have := Real.pi_pos
      have := Real.pi_lt_four
      constructor
      · positivity
      · linarith
    have hq1 : q.1 ^ 2 + q.2 ^ 2 ≤ 1 := by
      simp only [crossPts, List.mem_cons, List.not_mem_nil, or_false] at hq
      rcases hq with rfl | rfl | rfl | rfl <;> simp only <;> nlinarith [hr.1, hr.2]
    have hi : inst2sky 1 1 0 θ q = rigid θ 0 0 q := by
      unfold inst2sky
      rw [apply_zero hq1, ← linear_eq]
      simp [linear]
    have hn : (rigid θ 0 0 q).1 ^ 2 + (rigid θ 0 0 q).2 ^ 2 ≤ 1 := by
      unfold rigid
      have hcs := Real.sin_sq_add_cos_sq (θ * Real.pi / 180)
      generalize Real.sin (θ * Real.pi / 180) = S at *
      generalize Real.cos (θ * Real.pi / 180) = C at *
      simp only
      have : (C * q.1 - S * q.2 + 0) ^ 2 + (S * q.1 + C * q.2 + 0) ^ 2 = q.1 ^ 2 + q.2 ^ 2 := by
        linear_combination (q.1 ^ 2 + q.2 ^ 2) * hcs
      linarith
    dsimp only
    rw [hz, hi, h0]
    simp only [sub_sub_cancel, sub_zero, one_mul]
    exact tan_id _ hn

/-- **C70 disagreement**: so the reported value is not the rotation angle: for `0 < θ ≤ 180` it is smaller. -/
theorem C70_not_the_angle (env : Env) (f : Field) (m h t : ℝ) (h1 : f.mjd = some m) (h2 : f.hexrot = some h) (h3 : f.lst = some t)
    (P : ℝ × ℝ → ℝ × ℝ) (hP : ∀ q, q = (0, 0) ∨ q ∈ crossPts → fp2radec env f (env.tan2fp q) = .ok (some (P q))) (k θ : ℝ) (hk : 0 < k)
    (hrot : ∀ q ∈ crossPts, hadec2xy (t - (P q).1, (P q).2) (t - (P (0, 0)).1, (P (0, 0)).2) =
      (k * (rigid θ 0 0 q).1, k * (rigid θ 0 0 q).2)) (hθ : 0 < θ) :
    ∃ r, computeFieldrot env f = .ok (some r) ∧ -θ < r := by
  refine ⟨_, C70_value env f m h t h1 h2 h3 P hP k θ hk hrot, ?_⟩
  have hpi := Real.pi_pos
  have := Real.sin_lt (show 0 < θ * Real.pi / 180 by positivity)
  have h5 : Real.sin (θ * Real.pi / 180) * (180 / Real.pi) < θ * Real.pi / 180 * (180 / Real.pi) :=
    mul_lt_mul_of_pos_right this (by positivity)
  have h6 : θ * Real.pi / 180 * (180 / Real.pi) = θ := by field_simp
  linarith

theorem turn_bounded {a b : ℝ × ℝ} {s : ℝ} (h : turn a b = some s) : |s| ≤ 1 := by
  unfold turn fdiv at h
  split_ifs at h with h0
  injection h with h
  subst h
  rw [abs_div, abs_of_nonneg (Real.sqrt_nonneg _), div_le_one (lt_of_le_of_ne (Real.sqrt_nonneg _) (Ne.symm h0))]
  apply Real.abs_le_sqrt
  nlinarith [sq_nonneg (a.1 * b.1 + a.2 * b.2)]

theorem mapM_id_mem : ∀ {z : List (Option ℝ)} {s : List ℝ}, z.mapM id = some s → ∀ x ∈ s, some x ∈ z
  | [], s, h, x, hx => by
    simp at h; subst h; simp at hx
  | a :: z, s, h, x, hx => by
    rw [List.mapM_cons] at h
    simp only [bind, Option.bind_eq_some_iff, pure, Option.some.injEq] at h
    obtain ⟨b, hb, s', hs', rfl⟩ := h
    rcases List.mem_cons.1 hx with rfl | hx
    · exact List.mem_cons.2 (Or.inl hb.symm)
    · exact List.mem_cons_of_mem _ (mapM_id_mem hs' x hx)

/-- **C70 disagreement**: whatever the rotation, the reported value never exceeds 57.3 degrees. -/
theorem C70_bounded (env : Env) (f : Field) (r : ℝ) (h : computeFieldrot env f = .ok (some r)) : |r| ≤ 180 / Real.pi := by
  unfold computeFieldrot at h
  obtain ⟨c, -, h⟩ := Verif.Lemmas.bind_ok h
  obtain ⟨pts, -, h⟩ := Verif.Lemmas.bind_ok h
  cases ht : f.lst with
  | none => rw [ht] at h; cases h
  | some t =>
    rw [ht] at h
    simp only [pure, Except.pure, Except.ok.injEq, bind, Option.bind_eq_some_iff, Option.some.injEq] at h
    obtain ⟨c', hc', pts', hp', s, hs, rfl⟩ := h
    have hall : ∀ x ∈ s, |x| ≤ 1 := by
      intro x hx
      have ho := mapM_id_mem hs x hx
      obtain ⟨i, hi, e⟩ := List.mem_iff_getElem.1 ho
      rw [List.getElem_zipWith] at e
      exact turn_bounded e
    have hsum : ∀ s : List ℝ, (∀ x ∈ s, |x| ≤ 1) → |s.sum| ≤ s.length := by
      intro s
      induction s with
      | nil => simp
      | cons a s ih =>
        intro h
        rw [List.sum_cons, List.length_cons]
        push_cast
        have h1 := h a List.mem_cons_self
        have h2 := ih (fun x hx => h x (List.mem_cons_of_mem _ hx))
        have := abs_add_le a s.sum
        linarith
    unfold degrees mean
    rw [abs_mul, abs_of_pos (show 0 < 180 / Real.pi by have := Real.pi_pos; positivity), abs_div, Nat.abs_cast]
    have : |s.sum| / s.length ≤ 1 := div_le_one_of_le₀ (hsum s hall) (by positivity)
    have hp : 0 < 180 / Real.pi := by have := Real.pi_pos; positivity
    nlinarith

end Verif.Props.FieldModel
