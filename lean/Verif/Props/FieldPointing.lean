import Verif.Props.FieldModel
import Verif.Lemmas.Pos2ptl

/-!
# C69: how the guide star fit moves the pointing
-/

namespace Verif.Props.FieldPointing
open Verif.Py Verif.Model.FieldFit Verif.Model.SimpleCorr Verif.Model.Trig Verif.Props Verif.Props.FieldModel

/-- Measured and catalogue tangent plane positions of the stars with metrology, for a pointing. -/
noncomputable def starPairs (env : Env) (stars : List Star) (m h t : ℝ) (tel : ℝ × ℝ) : List Pair :=
  (measured env stars).map fun s =>
    ⟨(tanPos env s).1, (tanPos env s).2, (env.radec2tan s.gaia tel m t h).1, (env.radec2tan s.gaia tel m t h).2⟩

/-- **C69** A successful fit is three fits of the correction. Each starts from the pointing left by the previous one; the declination goes
down by the fitted declination offset and the right ascension up by the fitted hour angle offset divided by
the cosine of the new declination. Scales, rotation, number of stars and rms are those of the third fit. -/
theorem C69_pointing (env : Env) (f g : Field) (stars : List Star) (mjdObs : Option (List ℝ)) (mjd hexrot lst : Option ℝ)
    (hg : fitTancorr env f stars mjdObs mjd hexrot lst = .ok g) :
    ∃ (m h t : ℝ) (tel : Fin 4 → ℝ × ℝ) (c : Fin 3 → TanFit),
      g.mjd = some m ∧ g.hexrot = some h ∧ g.lst = some t ∧
      tel 0 = (f.ra, f.dec) ∧ tel 3 = (g.ra, g.dec) ∧
      (∀ i : Fin 3, tanFit (starPairs env stars m h t (tel i.castSucc)) = .ok (c i) ∧
        (tel i.succ).2 = (tel i.castSucc).2 - (c i).ddec ∧
        ((tel i.succ).1 - (tel i.castSucc).1) = (c i).dha / Real.cos ((tel i.succ).2 * Real.pi / 180)) ∧
      g.dec = f.dec - ((c 0).ddec + (c 1).ddec + (c 2).ddec) ∧
      g.sxx = (c 2).sxx ∧ g.syy = (c 2).syy ∧ g.sxy = (c 2).sxy ∧ g.zp = (c 2).rotDeg ∧ g.nstars = (c 2).nstars ∧
      g.rmsArcsec = (c 2).rmsArcsec := by
  unfold fitTancorr at hg
  obtain ⟨⟨m, h, t⟩, -, hg⟩ := Lemmas.bind_ok hg
  dsimp only at hg
  obtain ⟨⟨tel, c⟩, hl, hg⟩ := Lemmas.bind_ok hg
  dsimp only at hg
  obtain ⟨r, -, hg⟩ := Lemmas.bind_ok hg
  simp only [pure, Except.pure, Except.ok.injEq] at hg
  unfold pointLoop at hl
  obtain ⟨⟨t1, c1⟩, s1, hl⟩ := Lemmas.bind_ok hl
  obtain ⟨⟨t2, c2⟩, s2, s3⟩ := Lemmas.bind_ok hl
  have step : ∀ a b d, pointStep env m h t (usable env stars) a = .ok (b, d) →
      tanFit (starPairs env stars m h t a) = .ok d ∧ b.2 = a.2 - d.ddec ∧
        (b.1 - a.1) = d.dha / Real.cos (b.2 * Real.pi / 180) := by
    intro a b d hs
    unfold pointStep at hs
    obtain ⟨e, he, hs⟩ := Lemmas.bind_ok hs
    rw [pairs_eq] at he
    simp only [pure, Except.pure, Except.ok.injEq, Prod.mk.injEq] at hs
    obtain ⟨hb, rfl⟩ := hs
    subst hb
    refine ⟨he, rfl, ?_⟩
    simp only [add_sub_cancel_left, Lemmas.Sky.cosd_eq]
  have k1 := step _ _ _ s1
  have k2 := step _ _ _ s2
  have k3 := step _ _ _ s3
  subst hg
  refine ⟨m, h, t, ![(f.ra, f.dec), t1, t2, tel], ![c1, c2, c], rfl, rfl, rfl, rfl, rfl, ?_, ?_, rfl, rfl, rfl, rfl, rfl, rfl⟩
  · intro i
    fin_cases i
    · exact k1
    · exact k2
    · exact k3
  · have a1 := k1.2.1
    have a2 := k2.2.1
    have a3 := k3.2.1
    simp only [Matrix.cons_val_zero, Matrix.cons_val_one, Matrix.cons_val]
    dsimp only at a1
    rw [a3, a2, a1]
    ring

/-- **C69** If the three offsets fitted are zero the pointing is not moved. -/
theorem C69_fixed (env : Env) (f g : Field) (stars : List Star) (mjdObs : Option (List ℝ)) (mjd hexrot lst : Option ℝ)
    (hg : fitTancorr env f stars mjdObs mjd hexrot lst = .ok g) (m h t : ℝ)
    (hm : g.mjd = some m) (hh : g.hexrot = some h) (ht : g.lst = some t) (c : TanFit)
    (hc : tanFit (starPairs env stars m h t (f.ra, f.dec)) = .ok c) (h1 : c.dha = 0) (h2 : c.ddec = 0) :
    g.ra = f.ra ∧ g.dec = f.dec ∧ g.rmsArcsec = c.rmsArcsec := by
  obtain ⟨m', h', t', tel, d, e1, e2, e3, e4, e5, hs, -, -, -, -, -, -, e6⟩ := C69_pointing env f g stars mjdObs mjd hexrot lst hg
  rw [hm] at e1; rw [hh] at e2; rw [ht] at e3
  injection e1 with e1; injection e2 with e2; injection e3 with e3
  subst e1 e2 e3
  have key : ∀ i : Fin 3, tel i.castSucc = (f.ra, f.dec) → d i = c ∧ tel i.succ = (f.ra, f.dec) := by
    intro i hi
    obtain ⟨a1, a2, a3⟩ := hs i
    rw [hi, hc] at a1
    injection a1 with a1
    rw [hi, ← a1, h2] at a2
    rw [hi, ← a1, h1] at a3
    refine ⟨a1.symm, ?_⟩
    ext
    · simp at a3; simp only; linarith
    · simp only at a2 ⊢; linarith
  have k0 := (key 0 e4).2
  have k1 := (key 1 k0).2
  have k2 := key 2 k1
  have : tel 3 = (f.ra, f.dec) := k2.2
  rw [e5] at this
  refine ⟨congrArg Prod.fst this, congrArg Prod.snd this, ?_⟩
  rw [e6, k2.1]

/-- The hypotheses of `C69_pointing` and `C69_fixed` can be met: four stars, rotated and stretched. -/
example (f : Field) : ∃ g c, fitTancorr flatEnv f fourStars none (some 1) (some 2) (some 3) = .ok g ∧ g.mjd = some 1 ∧ g.hexrot = some 2 ∧
    g.lst = some 3 ∧ tanFit (starPairs flatEnv fourStars 1 2 3 (f.ra, f.dec)) = .ok c ∧ c.dha = 0 ∧ c.ddec = 0 := by
  have H := (fourStars_exact f 1 2 3).1
  obtain ⟨c, r, hc, hg⟩ := fit_exact H none
  obtain ⟨c', _, _, _, _, hc', d, e, -⟩ := FieldFit.C67_exact _ _ (pairs_centred H) (by norm_num) (by norm_num)
  refine ⟨_, c', hg, rfl, rfl, rfl, ?_, d, e⟩
  rw [← hc']
  congr 1
  unfold starPairs
  rw [pairs_eq]

end Verif.Props.FieldPointing
