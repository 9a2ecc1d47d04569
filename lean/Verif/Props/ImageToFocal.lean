import Verif.Props.DetectMany
import Verif.Props.Shipped

/-!
# Property C134: from the image to the focal plane (`detectspots.py`, `transform/fvc2fp.py`, `data/init-fvc2fp.json`)
-/

namespace Verif.Props.ImageToFocal
open Verif.Py Verif.Model.Detectspots Verif.Model.DetectImage Verif.Model.Fvc2fp Verif.Model.Shipped Verif.Props Verif.Props.DetectImage
  Verif.Props.DetectMeasured Verif.Props.DetectMany Verif.Props.Shipped
open Verif.Model.Centroid hiding span

theorem mapM_length {α β : Type} (f : α → Except PyErr β) : ∀ (l : List α) (r : List β), l.mapM f = .ok r → r.length = l.length := by
  intro l
  induction l with
  | nil =>
    intro r h
    rw [List.mapM_nil] at h
    cases h
    rfl
  | cons a l ih =>
    intro r h
    rw [List.mapM_cons] at h
    rcases ha : f a with e | s
    · rw [ha] at h
      exact nomatch h
    · rw [ha] at h
      rcases hl : l.mapM f with e | t
      · rw [hl] at h
        exact nomatch h
      · rw [hl] at h
        have hr : r = s :: t := by
          cases h
          rfl
        rw [hr, List.length_cons, List.length_cons, ih t hl]

/-- **C134** Every spot of the table belongs to a peak of the convolved image, and its position in the focal plane, with the transformation
shipped, is within 0.2 mm in both coordinates of that of the pixel of the peak. -/
theorem C134_near {n0 n1 : ℕ} (image : Stamp n0 n1) (samples : List (Fin n0 × Fin n1)) (second : List Spot → ℕ → Option ℕ)
    (minPixel : Option ℝ) (minSpot nsig sigma : ℝ) (rows : List Row)
    (h : detect image samples second minPixel minSpot nsig sigma = .ok rows) (r : Row) (hr : r ∈ rows) :
    ∃ (i : Fin n0) (j : Fin n1), (∀ (i' : Fin n0) (j' : Fin n1),
        (i'.1 = i.1 ∧ (j'.1 + 1 = j.1 ∨ j'.1 = j.1 + 1)) ∨ (j'.1 = j.1 ∧ (i'.1 + 1 = i.1 ∨ i'.1 = i.1 + 1)) →
        convolve image sigma i' j' < convolve image sigma i j) ∧
      ((201 ≤ i.1 ∧ i.1 ≤ 5799) → (201 ≤ j.1 ∧ j.1 ≤ 5799) →
        ∃ p q, initFvc2fp.fvc2fp [(r.x, r.y), ((j.1 : ℝ), (i.1 : ℝ))] = .ok [p, q] ∧ |p.1 - q.1| ≤ 0.2 ∧ |p.2 - q.2| ≤ 0.2) := by
  obtain ⟨m, rms, -, hall⟩ := C127_measured image samples second minPixel minSpot nsig sigma rows h
  obtain ⟨i, j, -, -, hpk, hx, hy, -⟩ := hall r hr
  refine ⟨i, j, hpk, fun hi hj => ?_⟩
  have hx' := abs_le.1 hx
  have hy' := abs_le.1 hy
  have i1 : (201 : ℝ) ≤ i.1 := by exact_mod_cast hi.1
  have i2 : (i.1 : ℝ) ≤ 5799 := by exact_mod_cast hi.2
  have j1 : (201 : ℝ) ≤ j.1 := by exact_mod_cast hj.1
  have j2 : (j.1 : ℝ) ≤ 5799 := by exact_mod_cast hj.2
  obtain ⟨p, q, e, -, hd⟩ := C133_camera_scale (r.x, r.y) ((j.1 : ℝ), (i.1 : ℝ))
    ⟨⟨by dsimp only; linarith, by dsimp only; linarith⟩, by dsimp only; linarith, by dsimp only; linarith⟩
    ⟨⟨by dsimp only; linarith, by dsimp only; linarith⟩, by dsimp only; linarith, by dsimp only; linarith⟩
  have hone : dist ((r.x, r.y) : ℝ × ℝ) ((j.1 : ℝ), (i.1 : ℝ)) ≤ 1 := by
    rw [Prod.dist_eq]
    refine max_le ?_ ?_
    · rw [Real.dist_eq]
      exact hx
    · rw [Real.dist_eq]
      exact hy
  have hpq : dist p q ≤ 0.2 := hd.trans (by nlinarith)
  rw [Prod.dist_eq, Real.dist_eq, Real.dist_eq] at hpq
  exact ⟨p, q, e, (le_max_left _ _).trans hpq, (le_max_right _ _).trans hpq⟩

/-- Two positions of the camera that are at least the width of the PSF apart are, in the focal plane, farther apart
than 0.035 mm times the width. -/
theorem apart (u v : ℝ × ℝ) (hu : (200 ≤ u.1 ∧ u.1 ≤ 5800) ∧ 200 ≤ u.2 ∧ u.2 ≤ 5800)
    (hv : (200 ≤ v.1 ∧ v.1 ≤ 5800) ∧ 200 ≤ v.2 ∧ v.2 ≤ 5800) (sigma : ℝ) (hs : 0 < sigma)
    (hfar : sigma ^ 2 ≤ (u.1 - v.1) ^ 2 + (u.2 - v.2) ^ 2) :
    ∃ p q, initFvc2fp.fvc2fp [u, v] = .ok [p, q] ∧ (0.035 * sigma) ^ 2 < (p.1 - q.1) ^ 2 + (p.2 - q.2) ^ 2 := by
  obtain ⟨p, q, e, hd, -⟩ := C133_camera_scale u v hu hv
  refine ⟨p, q, e, ?_⟩
  have h1 : sigma ^ 2 ≤ 2 * dist u v ^ 2 := by
    have a1 : (u.1 - v.1) ^ 2 ≤ dist u v ^ 2 := by
      rw [← sq_abs, ← Real.dist_eq]
      exact pow_le_pow_left₀ dist_nonneg (by rw [Prod.dist_eq]; exact le_max_left _ _) 2
    have a2 : (u.2 - v.2) ^ 2 ≤ dist u v ^ 2 := by
      rw [← sq_abs, ← Real.dist_eq]
      exact pow_le_pow_left₀ dist_nonneg (by rw [Prod.dist_eq]; exact le_max_right _ _) 2
    linarith
  have h2 : dist p q ^ 2 ≤ (p.1 - q.1) ^ 2 + (p.2 - q.2) ^ 2 := by
    rw [Prod.dist_eq, Real.dist_eq, Real.dist_eq]
    rcases max_choice |p.1 - q.1| |p.2 - q.2| with hm | hm
    · rw [hm, sq_abs]
      nlinarith [sq_nonneg (p.2 - q.2)]
    · rw [hm, sq_abs]
      nlinarith [sq_nonneg (p.1 - q.1)]
  have h3 : (0.05 * dist u v) ^ 2 ≤ dist p q ^ 2 := pow_le_pow_left₀ (by positivity) hd 2
  have h4 : 0 < sigma ^ 2 := by positivity
  nlinarith

/-- **C134** Spots stay apart: if fewer than 100 peaks are missing in the table, any two of its rows are, in the focal plane, farther apart than
0.035 mm times the width of the PSF. -/
theorem C134_apart {n0 n1 : ℕ} (image : Stamp n0 n1) (samples : List (Fin n0 × Fin n1)) (second : List Spot → ℕ → Option ℕ)
    (ht : Det.Tree second) (minPixel : Option ℝ) (minSpot nsig sigma : ℝ) (hs : 0 < sigma) (rows : List Row)
    (h : detect image samples second minPixel minSpot nsig sigma = .ok rows) :
    ∃ m rms, clip (samples.map fun p => convolve image sigma p.1 p.2) = some (m, rms) ∧
      ((peakIndices n0 n1 (grid fun a b => convolve image sigma a b - m) (threshold minPixel nsig rms)).length < rows.length + 100 →
      rows.Pairwise fun r s => ((200 ≤ r.x ∧ r.x ≤ 5800) ∧ 200 ≤ r.y ∧ r.y ≤ 5800) → ((200 ≤ s.x ∧ s.x ≤ 5800) ∧ 200 ≤ s.y ∧ s.y ≤ 5800) →
        ∃ p q, initFvc2fp.fvc2fp [(r.x, r.y), (s.x, s.y)] = .ok [p, q] ∧ (0.035 * sigma) ^ 2 < (p.1 - q.1) ^ 2 + (p.2 - q.2) ^ 2) := by
  unfold detect at h
  dsimp only at h
  rcases hc : clip (samples.map fun p => convolve image sigma p.1 p.2) with _ | ⟨m, rms⟩
  · rw [hc] at h
    exact nomatch h
  rw [hc] at h
  dsimp only at h
  refine ⟨m, rms, hc, fun hlen => ?_⟩
  rcases hd : detectspots n0 n1 (grid fun i j => convolve image sigma i j - m) rms (stampFit fun i j => image i j - m) second minPixel minSpot
    nsig sigma with e | l
  · rw [hd] at h
    exact nomatch h
  rw [hd] at h
  have hrows : rows = l.map (row ((clip (samples.map fun p => image p.1 p.2 - m)).map Prod.snd)) := by
    cases h
    rfl
  unfold detectspots at hd
  dsimp only at hd
  split_ifs at hd
  rcases hm : (peakIndices n0 n1 (grid fun i j => convolve image sigma i j - m) (threshold minPixel nsig rms)).mapM
    (measurePeak n0 n1 (stampFit fun i j => image i j - m)) with e | l'
  · rw [hm] at hd
    exact nomatch hd
  rw [hm] at hd
  have hl : l = dedup second sigma 100 (countFilter minSpot l') := by
    cases hd
    rfl
  have hl' : (countFilter minSpot l').length ≤
      (peakIndices n0 n1 (grid fun i j => convolve image sigma i j - m) (threshold minPixel nsig rms)).length := by
    have e1 : (countFilter minSpot l').length ≤ l'.length := by
      unfold countFilter
      split_ifs
      · exact List.length_filter_le _ _
      · exact le_rfl
    exact e1.trans (mapM_length _ _ _ hm).le
  rw [hrows, List.length_map] at hlen
  rw [hrows, List.pairwise_map]
  rcases C58_no_close_pairs second ht sigma 100 (countFilter minSpot l') with hp | hp
  · rw [hl]
    refine hp.imp fun {a b} hab ha hb => ?_
    refine apart (a.x, a.y) (b.x, b.y) ha hb sigma hs ?_
    unfold sdist at hab
    rw [Real.le_sqrt' hs] at hab
    exact hab
  · rw [← hl] at hp
    omega

/-- **C134** What an error in pixels is in the focal plane. Sources within the field are put on the camera by the transformation shipped; spots
measured there with errors of at most `d` pixels in each coordinate come back to the sources with errors of at most `0.2 d` mm plus 2 nm. -/
theorem C134_error (sources : List (ℝ × ℝ)) (hne : sources ≠ []) (hsrc : ∀ p ∈ sources, |p.1| ≤ 420 ∧ |p.2| ≤ 420) :
    ∃ pix : ℝ × ℝ → ℝ × ℝ, initFvc2fp.fp2fvc sources = .ok (sources.map pix) ∧
      ∀ (meas : ℝ × ℝ → ℝ × ℝ) (d : ℝ),
        (∀ p ∈ sources, |(meas p).1 - (pix p).1| ≤ d ∧ |(meas p).2 - (pix p).2| ≤ d ∧
          ∀ u ∈ [meas p, pix p], (200 ≤ u.1 ∧ u.1 ≤ 5800) ∧ 200 ≤ u.2 ∧ u.2 ≤ 5800) →
        ∃ found : ℝ × ℝ → ℝ × ℝ, initFvc2fp.fvc2fp (sources.map meas) = .ok (sources.map found) ∧
          ∀ p ∈ sources, |(found p).1 - p.1| ≤ 0.2 * d + 2e-6 ∧ |(found p).2 - p.2| ≤ 0.2 * d + 2e-6 := by
  obtain ⟨pix, fp, e1, e2, e3⟩ := C133_camera_back sources hne hsrc
  refine ⟨pix, e1, fun meas d hm => ?_⟩
  obtain ⟨D, hD, -⟩ := Verif.Lemmas.ZhaoBurgeLip.distortion _ init_ids _ _ init_within
  have heq := fun pts => Verif.Lemmas.Fvc2fp.fvc2fp_eq initFvc2fp hD pts
  set F : ℝ × ℝ → ℝ × ℝ := fun p =>
    Verif.Model.Fvc2fp.expandFp (Verif.Lemmas.Fvc2fp.lin initFvc2fp (initFvc2fp.reduceFvc p) +
      D (Verif.Lemmas.Fvc2fp.lin initFvc2fp (initFvc2fp.reduceFvc p))) with hF
  have hfp : ∀ p ∈ sources, fp p = F (pix p) := by
    rw [heq, List.map_map] at e2
    injection e2 with e2
    intro p hp
    exact (List.map_inj_left.1 e2 p hp).symm
  refine ⟨fun p => F (meas p), ?_, fun p hp => ?_⟩
  · rw [heq, List.map_map]
    rfl
  · obtain ⟨m1, m2, hbox⟩ := hm p hp
    obtain ⟨a, b, hab, -, hd⟩ := C133_camera_scale (meas p) (pix p) (hbox _ List.mem_cons_self) (hbox _ (List.mem_cons_of_mem _ List.mem_cons_self))
    rw [heq] at hab
    injection hab with hab
    simp only [List.map_cons, List.map_nil, List.cons.injEq, and_true] at hab
    obtain ⟨ha, hb⟩ := hab
    have hdd : dist (meas p) (pix p) ≤ d := by
      rw [Prod.dist_eq, Real.dist_eq, Real.dist_eq]
      exact max_le m1 m2
    have hab' : dist a b ≤ 0.2 * d := hd.trans (by nlinarith)
    rw [Prod.dist_eq, Real.dist_eq, Real.dist_eq] at hab'
    have c1 := abs_le.1 ((le_max_left _ _).trans hab')
    have c2 := abs_le.1 ((le_max_right _ _).trans hab')
    obtain ⟨f1, f2⟩ := e3 p hp
    rw [hfp p hp] at f1 f2
    have g1 := abs_le.1 f1
    have g2 := abs_le.1 f2
    have hb' : F (pix p) = b := hb
    have ha' : F (meas p) = a := ha
    rw [hb'] at g1 g2
    dsimp only
    rw [ha', abs_le, abs_le]
    refine ⟨⟨?_, ?_⟩, ?_, ?_⟩
    · linarith [c1.1, g1.1]
    · linarith [c1.2, g1.2]
    · linarith [c2.1, g2.1]
    · linarith [c2.2, g2.2]

/-- A source for `C134_error`: the one of the pixel in the middle of the camera, which is put back within the box. -/
example : ∃ p : ℝ × ℝ, initFvc2fp.fvc2fp [(3000, 3000)] = .ok [p] ∧ |p.1| ≤ 420 ∧ |p.2| ≤ 420 ∧
    ∃ u, initFvc2fp.fp2fvc [p] = .ok [u] ∧ (200 ≤ u.1 ∧ u.1 ≤ 5800) ∧ 200 ≤ u.2 ∧ u.2 ≤ 5800 := by
  obtain ⟨pts, pix, h1, h2, h3⟩ := C133_camera [(3000, 3000)] (by simp) (by
    intro u hu
    rw [List.mem_singleton] at hu
    subst hu
    norm_num)
  obtain ⟨D, hD, hDR⟩ := Verif.Lemmas.ZhaoBurgeLip.distortion _ init_ids _ _ init_within
  have heq := Verif.Lemmas.Fvc2fp.fvc2fp_eq initFvc2fp hD [(3000, 3000)]
  have hreg := init_region (u := (3000, 3000)) (by norm_num)
  set a := Verif.Lemmas.Fvc2fp.lin initFvc2fp (initFvc2fp.reduceFvc (3000, 3000)) with ha
  have hDa : ‖D a‖ ≤ 84 / 1000 := by
    have hb : ((Verif.Lemmas.ZhaoBurgeLip.dS initFvc2fp.zbpolids initB 1 : ℚ) : ℝ) ≤ ((84 / 1000 : ℚ) : ℝ) := by
      exact_mod_cast init_bounds.2.2.1
    refine ((hDR 1 le_rfl).2 a (by simpa using hreg)).trans (hb.trans (by norm_num))
  have hsmall : |a.1| ≤ 0.1 ∧ |a.2| ≤ 0.1 := by
    have hs := abs_le.1 (Real.abs_sin_le_one (-0.0058668572341911375 : ℝ))
    have hc := abs_le.1 (Real.abs_cos_le_one (-0.0058668572341911375 : ℝ))
    rw [ha]
    unfold Verif.Lemmas.Fvc2fp.lin FVC2FP.reduceFvc
    simp only [initFvc2fp]
    rw [abs_le, abs_le]
    norm_num at hs hc ⊢
    refine ⟨⟨?_, ?_⟩, ?_, ?_⟩ <;> linarith
  rw [Prod.norm_def] at hDa
  have d1 := abs_le.1 ((le_max_left _ _).trans hDa)
  have d2 := abs_le.1 ((le_max_right _ _).trans hDa)
  have a1 := abs_le.1 hsmall.1
  have a2 := abs_le.1 hsmall.2
  rw [heq] at h1
  injection h1 with h1
  refine ⟨_, heq, ?_, ?_, pix (3000, 3000), ?_, ?_⟩
  · show |(a.1 + (D a).1) * 420| ≤ 420
    rw [abs_le]
    constructor <;> linarith [d1.1, d1.2]
  · show |(a.2 + (D a).2) * 420| ≤ 420
    rw [abs_le]
    constructor <;> linarith [d2.1, d2.2]
  · rw [← h1] at h2
    exact h2
  · obtain ⟨k1, k2⟩ := h3 _ List.mem_cons_self
    have k1 := abs_le.1 k1
    have k2 := abs_le.1 k2
    dsimp only at k1 k2
    norm_num at k1 k2
    refine ⟨⟨?_, ?_⟩, ?_, ?_⟩ <;> linarith

/-- An image of four hundred by four hundred pixels with a spot at the pixel (300, 300) (`C134_near`, `C134_apart`). -/
example : ∃ (image : Stamp 400 400) (v : ℝ) (second : List Spot → ℕ → Option ℕ) (rows : List Row), Det.Tree second ∧
    detect image [(0, 0), (0, 1), (0, 2)] second (some v) 0 0 0.1 = .ok rows ∧
    (rows.map fun r => (r.x, r.y, r.counts)) = [(300, 300, 1)] := by
  obtain ⟨second, htree, -⟩ := Det.tree_exists [] 0 none (by unfold Det.IsSecond; simp)
  obtain ⟨q, hq, hmax⟩ := Finset.exists_max_image ((Finset.univ : Finset (Fin 7 × Fin 7)).filter fun q => ¬ (q.1.1 = 3 ∧ q.2.1 = 3))
    (fun q => psf (q.1.1 : ℝ) (q.2.1 : ℝ) 3 3 1) ⟨(0, 0), by simp⟩
  have hq3 : ¬ (q.1.1 = 3 ∧ q.2.1 = 3) := (Finset.mem_filter.1 hq).2
  have hv : psf (q.1.1 : ℝ) (q.2.1 : ℝ) 3 3 1 < psf 3 3 3 3 1 := psf_centre _ _ hq3
  have hle : ∀ a b : ℕ, a < 7 → b < 7 → ¬ (a = 3 ∧ b = 3) → psf (a : ℝ) (b : ℝ) 3 3 1 ≤ psf (q.1.1 : ℝ) (q.2.1 : ℝ) 3 3 1 := by
    intro a b ha hb hab
    exact hmax (⟨a, ha⟩, ⟨b, hb⟩) (Finset.mem_filter.2 ⟨Finset.mem_univ _, hab⟩)
  have hv0 : 0 ≤ psf (q.1.1 : ℝ) (q.2.1 : ℝ) 3 3 1 := by
    have hw : 0 < width 1 := Lemmas.Centroid.width_pos one_pos
    have h1 := Lemmas.Centroid.span_pos hw (q.1.1 : ℝ) 3
    have h2 := Lemmas.Centroid.span_pos hw (q.2.1 : ℝ) 3
    unfold psf
    positivity
  set v := psf (q.1.1 : ℝ) (q.2.1 : ℝ) 3 3 1
  let image : Stamp 400 400 := fun a b => if a.1 = 0 ∧ b.1 = 0 then 0 else if a.1 = 0 ∧ b.1 = 1 then 1 else if a.1 = 0 ∧ b.1 = 2 then 1000 else
    if 297 ≤ a.1 ∧ a.1 ≤ 303 ∧ 297 ≤ b.1 ∧ b.1 ≤ 303 then 1 / 2 + psf ((a.1 - 297 : ℕ) : ℝ) ((b.1 - 297 : ℕ) : ℝ) 3 3 1 else 1 / 2
  have himg : ∀ (a b : ℕ) (ha : a < 400) (hb : b < 400), 1 ≤ a → image ⟨a, ha⟩ ⟨b, hb⟩ =
      if 297 ≤ a ∧ a ≤ 303 ∧ 297 ≤ b ∧ b ≤ 303 then 1 / 2 + psf ((a - 297 : ℕ) : ℝ) ((b - 297 : ℕ) : ℝ) 3 3 1 else 1 / 2 := by
    intro a b ha hb h
    show (if a = 0 ∧ b = 0 then (0 : ℝ) else _) = _
    rw [if_neg (by omega), if_neg (by dsimp only; omega), if_neg (by dsimp only; omega)]
  have hg0 : ∀ a b : ℕ, 1 ≤ a → a < 400 → b < 400 → ¬ (297 ≤ a ∧ a ≤ 303 ∧ 297 ≤ b ∧ b ≤ 303) →
      grid (fun a b => convolve image 0.1 a b - 1 / 2) a b = 0 := by
    intro a b h ha hb hw
    rw [grid_eq _ ha hb, convolve_narrow, himg _ _ _ _ h, if_neg hw]
    ring
  have hg : ∀ a b : ℕ, 297 ≤ a ∧ a ≤ 303 ∧ 297 ≤ b ∧ b ≤ 303 →
      grid (fun a b => convolve image 0.1 a b - 1 / 2) a b = psf ((a - 297 : ℕ) : ℝ) ((b - 297 : ℕ) : ℝ) 3 3 1 := by
    intro a b h
    rw [grid_eq _ (by omega : a < 400) (by omega : b < 400), convolve_narrow, himg _ _ _ _ (by omega), if_pos h]
    ring
  have hthr : threshold (some v) 0 (1 / 2) = v := by
    unfold threshold
    rw [zero_mul]
    exact max_eq_left hv0
  obtain ⟨rows, h1, h2⟩ := C127_spots image [(0, 0), (0, 1), (0, 2)] second htree (some v) 0 0 0.1 (1 / 2) (1 / 2)
    (by
      simp only [convolve_narrow, List.map_cons, List.map_nil]
      exact clip_case) [(300, 300)] (fun _ => 1) (by
    intro a b
    rw [hthr]
    simp only [isPeak, Bool.and_eq_true, decide_eq_true_eq, gt_iff_lt, List.mem_cons, Prod.mk.injEq, List.not_mem_nil, or_false]
    constructor
    · rintro ⟨⟨h1, h2, h3, h4⟩, -, h5⟩
      by_cases hw : 297 ≤ a ∧ a ≤ 303 ∧ 297 ≤ b ∧ b ≤ 303
      · rw [hg a b hw] at h5
        by_contra hc
        exact absurd (hle (a - 297) (b - 297) (by omega) (by omega) (by omega)) (not_le.2 h5)
      · rw [hg0 a b h1 (by omega) (by omega) hw] at h5
        exact absurd h5 (not_lt.2 hv0)
    · rintro ⟨rfl, rfl⟩
      refine ⟨by omega, ?_, ?_⟩
      · rw [hg 300 300 (by omega), hg _ 300 (by omega), hg _ 300 (by omega), hg 300 _ (by omega), hg 300 _ (by omega)]
        exact ⟨⟨⟨psf_centre 2 3 (by omega), psf_centre 4 3 (by omega)⟩, psf_centre 3 2 (by omega)⟩, psf_centre 3 4 (by omega)⟩
      · rw [hg 300 300 (by omega)]
        exact hv) (by simp) (by simp) (by simp) (.inl (by norm_num)) (by
    intro p hp
    rw [List.mem_singleton] at hp
    subst hp
    norm_num) (by
    intro p hp a b
    rw [List.mem_singleton] at hp
    subst hp
    dsimp only
    rw [grid_eq _ (by omega : 300 - 3 + a.1 < 400) (by omega : 300 - 3 + b.1 < 400), himg _ _ _ _ (by omega), if_pos (by omega), one_mul]
    have e : ∀ k : ℕ, 300 - 3 + k - 297 = k := by omega
    rw [e, e])
  refine ⟨image, v, second, rows, htree, h1, ?_⟩
  rw [h2]
  norm_num

end Verif.Props.ImageToFocal
