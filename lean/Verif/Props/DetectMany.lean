import Verif.Props.DetectMeasured

/-!
# Property C127: all spots of an image (`py/desimeter/detectspots.py` lines 124-259)
-/

namespace Verif.Props.DetectMany
open Verif.Py Verif.Model.Detectspots Verif.Model.DetectImage Verif.Props Verif.Props.DetectImage Verif.Props.DetectMeasured
open Verif.Model.Centroid hiding span

theorem dedup_far {second : List Spot → ℕ → Option ℕ} (ht : Det.Tree second) {sigma : ℝ} (k : ℕ) {l : List Spot}
    (h : ∀ (i j : ℕ) (a b : Spot), l[i]? = some a → l[j]? = some b → i ≠ j → sigma ≤ sdist a b) : dedup second sigma k l = l := by
  cases k with
  | zero => rfl
  | succ k =>
    have hnone : firstBad second sigma l = none := by
      rcases hb : firstBad second sigma l with _ | bad
      · rfl
      · exfalso
        obtain ⟨idx, a, b, h1, h2, h3, h4⟩ := Det.firstBad_some hb
        by_cases he : bad = idx
        · subst he
          have hlen : bad < l.length := (List.getElem?_eq_some_iff.1 h2).1
          have hs := ht l bad hlen
          unfold Det.IsSecond at hs
          split_ifs at hs
          · rw [h1] at hs
            exact nomatch hs
          · obtain ⟨s, a', b', sa, sb, e1, e2, e3, e4, hne, hle, -⟩ := hs
            rw [h1] at e4
            cases e4
            rw [e1] at e3
            cases e3
            rw [Det.sdist_self] at hle
            have hfar := h bad a' s sa e1 e2 (Ne.symm hne)
            have hab : sdist a b = 0 := by
              rw [h2] at h3
              cases h3
              exact Det.sdist_self a
            linarith
        · exact absurd (h bad idx a b h2 h3 he) (not_le.2 h4)
    unfold dedup dedupStep
    rw [hnone]

theorem mapM_ok {α β : Type} (f : α → Except PyErr β) (g : α → β) : ∀ l : List α, (∀ a ∈ l, f a = .ok (g a)) → l.mapM f = .ok (l.map g) := by
  intro l
  induction l with
  | nil => intro _; rfl
  | cons a l ih =>
    intro h
    rw [List.mapM_cons, h a List.mem_cons_self, ih fun b hb => h b (List.mem_cons_of_mem _ hb)]
    rfl

/-- **C127** Spots that do not touch. If every peak of the convolved image above the threshold is at least three pixels off the border, and the
seven by seven pixels around each are the pedestal plus a Gaussian spot centred in it, and no two are closer than the width of the PSF (as is
always so for a width of at most one pixel), then the table has one row for each peak, in reading order, with exactly the position and the counts of its spot. -/
theorem C127_spots {n0 n1 : ℕ} (image : Stamp n0 n1) (samples : List (Fin n0 × Fin n1)) (second : List Spot → ℕ → Option ℕ) (ht : Det.Tree second)
    (minPixel : Option ℝ) (minSpot nsig sigma m rms : ℝ)
    (hc : clip (samples.map fun p => convolve image sigma p.1 p.2) = some (m, rms)) (peaks : List (ℕ × ℕ)) (flux : ℕ × ℕ → ℝ)
    (hpeak : ∀ i j, isPeak n0 n1 (grid fun a b => convolve image sigma a b - m) (threshold minPixel nsig rms) i j = true ↔ (i, j) ∈ peaks)
    (hsort : peaks.Pairwise fun p q => p.1 < q.1 ∨ (p.1 = q.1 ∧ p.2 < q.2)) (hne : peaks ≠ []) (hmany : peaks.length ≤ 10000)
    (hfar : sigma ≤ 1 ∨ ∀ p ∈ peaks, ∀ q ∈ peaks, p ≠ q → sigma ^ 2 ≤ ((p.1 : ℝ) - q.1) ^ 2 + ((p.2 : ℝ) - q.2) ^ 2)
    (hin : ∀ p ∈ peaks, 3 ≤ p.1 ∧ p.1 + 3 < n0 ∧ 3 ≤ p.2 ∧ p.2 + 3 < n1 ∧ flux p ≠ 0 ∧ minSpot ≤ flux p)
    (hspot : ∀ p ∈ peaks, ∀ a b : Fin 7, grid image (p.1 - 3 + a.1) (p.2 - 3 + b.1) = m + flux p * psf (a.1 : ℝ) (b.1 : ℝ) 3 3 1) :
    ∃ rows, detect image samples second minPixel minSpot nsig sigma = .ok rows ∧
      (rows.map fun r => (r.x, r.y, r.counts)) = peaks.map fun p => ((p.2 : ℝ), (p.1 : ℝ), flux p) := by
  have hn1 : 0 < n1 := by
    obtain ⟨p, hp⟩ := List.exists_mem_of_ne_nil peaks hne
    have := hin p hp
    omega
  have e1 : ∀ i j, j < n1 → (i * n1 + j) / n1 = i := by
    intro i j hj
    rw [Nat.add_comm, Nat.add_mul_div_right _ _ hn1, Nat.div_eq_of_lt hj, zero_add]
  have e2 : ∀ i j, j < n1 → (i * n1 + j) % n1 = j := by
    intro i j hj
    rw [Nat.add_comm, Nat.add_mul_mod_self_right, Nat.mod_eq_of_lt hj]
  have hpk : peakIndices n0 n1 (grid fun a b => convolve image sigma a b - m) (threshold minPixel nsig rms) = peaks.map fun p => p.1 * n1 + p.2 := by
    refine List.Perm.eq_of_pairwise (le := (· < ·)) (fun a b _ _ h1 h2 => by omega)
      (List.Pairwise.sublist List.filter_sublist List.pairwise_lt_range) ?_ ?_
    · rw [List.pairwise_map]
      refine hsort.imp_of_mem fun {p q} hp hq h => ?_
      have h1 := hin p hp
      rcases h with h | ⟨h, h'⟩
      · calc p.1 * n1 + p.2 < p.1 * n1 + n1 := by omega
          _ = (p.1 + 1) * n1 := by ring
          _ ≤ q.1 * n1 := Nat.mul_le_mul_right _ h
          _ ≤ q.1 * n1 + q.2 := by omega
      · rw [h]
        omega
    · have nd1 : (peakIndices n0 n1 (grid fun a b => convolve image sigma a b - m) (threshold minPixel nsig rms)).Nodup :=
        List.Nodup.sublist List.filter_sublist List.nodup_range
      have nd2 : (peaks.map fun p => p.1 * n1 + p.2).Nodup := by
        unfold List.Nodup
        rw [List.pairwise_map]
        refine hsort.imp_of_mem fun {p q} hp hq h he => ?_
        have h1 := hin p hp
        have h2 := hin q hq
        have d := congrArg (· / n1) he
        have r := congrArg (· % n1) he
        rw [e1 _ _ (by omega), e1 _ _ (by omega)] at d
        rw [e2 _ _ (by omega), e2 _ _ (by omega)] at r
        omega
      rw [List.perm_ext_iff_of_nodup nd1 nd2]
      intro x
      unfold peakIndices
      rw [List.mem_filter, List.mem_range, hpeak, List.mem_map]
      constructor
      · rintro ⟨-, h⟩
        exact ⟨_, h, Nat.div_add_mod' x n1⟩
      · rintro ⟨p, hp, rfl⟩
        have h1 := hin p hp
        rw [e1 _ _ (by omega), e2 _ _ (by omega)]
        refine ⟨?_, hp⟩
        calc p.1 * n1 + p.2 < p.1 * n1 + n1 := by omega
          _ = (p.1 + 1) * n1 := by ring
          _ ≤ n0 * n1 := Nat.mul_le_mul_right _ (by omega)
  have hfit : ∀ f : ℝ, f ≠ 0 → ∃ e : ℝ × ℝ,
      fitGaussian (fun (i : Fin 7) (j : Fin 7) => f * psf (i : ℕ) (j : ℕ) (7 / 2 : ℕ) (7 / 2 : ℕ) 1) 1 1 = .ok ⟨0, 0, e.1, e.2, f⟩ := by
    intro f hf
    obtain ⟨xe, ye, h⟩ := C101_exact (n0 := 7) (n1 := 7) (by omega) (by omega) f 1 1 one_pos hf
    exact ⟨(xe, ye), h⟩
  choose! err herr using hfit
  let g : ℕ × ℕ → Spot := fun p => ⟨p.2, p.1, (err (flux p)).1, (err (flux p)).2, flux p⟩
  have hmeas : ∀ p ∈ peaks, measurePeak n0 n1 (stampFit fun a b => image a b - m) (p.1 * n1 + p.2) = .ok (g p) := by
    intro p hp
    have h1 := hin p hp
    have hr : span n0 p.1 = (p.1 - 3, p.1 + 4) := by
      unfold span
      rw [if_pos h1.1, min_eq_left (by omega), min_eq_left (by omega)]
    have hcs : span n1 p.2 = (p.2 - 3, p.2 + 4) := by
      unfold span
      rw [if_pos h1.2.2.1, min_eq_left (by omega), min_eq_left (by omega)]
    have hst : Verif.Model.Centroid.fitcentroid (stamp (fun a b => image a b - m) (p.1 - 3, p.1 + 4) (p.2 - 3, p.2 + 4)) 1 =
        .ok ⟨0, 0, (err (flux p)).1, (err (flux p)).2, flux p⟩ := by
      rw [← herr (flux p) h1.2.2.2.2.1]
      refine fit_cast (by dsimp only; omega) (by dsimp only; omega) _ _ fun a b => ?_
      have ha : a.1 < p.1 + 4 - (p.1 - 3) := a.2
      have hb : b.1 < p.2 + 4 - (p.2 - 3) := b.2
      unfold stamp
      have := hspot p hp ⟨a.1, by omega⟩ ⟨b.1, by omega⟩
      rw [grid_eq _ (by dsimp only; omega) (by dsimp only; omega)] at this ⊢
      dsimp only at this ⊢
      rw [this]
      norm_num
    unfold measurePeak Verif.Model.Detectspots.fitcentroid
    dsimp only
    rw [e1 _ _ (by omega), e2 _ _ (by omega), hr, hcs, if_neg (by dsimp only; omega)]
    unfold stampFit
    rw [hst]
    show Except.ok _ = Except.ok _
    dsimp only [g]
    congr 2
    · ring
    · ring
  have hmap : (peakIndices n0 n1 (grid fun a b => convolve image sigma a b - m) (threshold minPixel nsig rms)).mapM
      (measurePeak n0 n1 (stampFit fun a b => image a b - m)) = .ok (peaks.map g) := by
    rw [hpk]
    have := mapM_ok (measurePeak n0 n1 (stampFit fun a b => image a b - m)) (fun k => g (k / n1, k % n1)) (peaks.map fun p => p.1 * n1 + p.2) (by
      intro k hk
      rw [List.mem_map] at hk
      obtain ⟨p, hp, rfl⟩ := hk
      have h1 := hin p hp
      rw [hmeas p hp, e1 _ _ (by omega), e2 _ _ (by omega)])
    rw [this, List.map_map]
    congr 1
    refine List.map_congr_left fun p hp => ?_
    have h1 := hin p hp
    show g ((p.1 * n1 + p.2) / n1, (p.1 * n1 + p.2) % n1) = g p
    rw [e1 _ _ (by omega), e2 _ _ (by omega)]
  have hcf : countFilter minSpot (peaks.map g) = peaks.map g := by
    unfold countFilter
    split_ifs
    · rw [List.filter_eq_self]
      intro s hs
      rw [List.mem_map] at hs
      obtain ⟨p, hp, rfl⟩ := hs
      exact decide_eq_true (hin p hp).2.2.2.2.2
    · rfl
  have hdd : dedup second sigma 100 (peaks.map g) = peaks.map g := by
    refine dedup_far ht 100 fun i j a b hi hj hij => ?_
    have hdist : ∀ p q : ℕ × ℕ, p ≠ q → 1 ≤ sdist (g p) (g q) := by
      intro p q hpq
      unfold sdist
      rw [Real.one_le_sqrt]
      have hz : ∀ a b : ℕ, a ≠ b → 1 ≤ ((a : ℝ) - b) ^ 2 := by
        intro a b hab
        have : (1 : ℤ) ≤ ((a : ℤ) - b) ^ 2 := by
          have hne : (a : ℤ) - b ≠ 0 := by omega
          have := sq_nonneg ((a : ℤ) - b)
          have := pow_ne_zero 2 hne
          omega
        exact_mod_cast this
      show 1 ≤ ((p.2 : ℝ) - q.2) ^ 2 + ((p.1 : ℝ) - q.1) ^ 2
      by_cases h2 : p.2 = q.2
      · have := hz p.1 q.1 fun h1 => hpq (Prod.ext h1 h2)
        nlinarith [sq_nonneg ((p.2 : ℝ) - q.2)]
      · have := hz p.2 q.2 h2
        nlinarith [sq_nonneg ((p.1 : ℝ) - q.1)]
    rw [List.getElem?_map, Option.map_eq_some_iff] at hi hj
    obtain ⟨p, hp, rfl⟩ := hi
    obtain ⟨q, hq, rfl⟩ := hj
    have hpq : p ≠ q := ?_
    · rcases hfar with hsig | hfar
      · exact hsig.trans (hdist p q hpq)
      · have := hfar p (List.mem_of_getElem? hp) q (List.mem_of_getElem? hq) hpq
        refine Real.le_sqrt_of_sq_le ?_
        show sigma ^ 2 ≤ ((p.2 : ℝ) - q.2) ^ 2 + ((p.1 : ℝ) - q.1) ^ 2
        linarith
    rintro rfl
    have hnd : peaks.Nodup := hsort.imp fun {p q} h he => by
      subst he
      omega
    obtain ⟨hi', hp'⟩ := List.getElem?_eq_some_iff.1 hp
    obtain ⟨hj', hq'⟩ := List.getElem?_eq_some_iff.1 hq
    exact hij (hnd.getElem_inj_iff.1 (hp'.trans hq'.symm))
  unfold detect
  dsimp only
  rw [hc]
  dsimp only
  unfold detectspots
  dsimp only
  have hlen : (peakIndices n0 n1 (grid fun a b => convolve image sigma a b - m) (threshold minPixel nsig rms)).length = peaks.length := by
    rw [hpk, List.length_map]
  rw [hlen, if_neg (fun h => hne (List.length_eq_zero_iff.1 h)), if_neg (by omega), hmap]
  refine ⟨(peaks.map g).map (row ((clip (samples.map fun p => image p.1 p.2 - m)).map Prod.snd)), ?_, ?_⟩
  · show Except.ok (List.map _ (dedup second sigma 100 (countFilter minSpot (peaks.map g)))) = _
    rw [hcf, hdd]
  · rw [List.map_map, List.map_map]
    rfl

/-- An image of nine by sixteen pixels with two spots that are found (`C127_spots`). -/
example : ∃ (image : Stamp 9 16) (v : ℝ) (second : List Spot → ℕ → Option ℕ) (rows : List Row), Det.Tree second ∧
    detect image [(0, 0), (0, 1), (0, 2)] second (some v) 0 0 0.1 = .ok rows ∧
    (rows.map fun r => (r.x, r.y, r.counts)) = [(4, 4, 1), (11, 4, 1)] := by
  obtain ⟨second, htree, -⟩ := Det.tree_exists [] 0 none (by unfold Det.IsSecond; simp)
  obtain ⟨q, hq, hmax⟩ := Finset.exists_max_image ((Finset.univ : Finset (Fin 7 × Fin 7)).filter fun q => ¬ (q.1.1 = 3 ∧ q.2.1 = 3))
    (fun q => psf (q.1.1 : ℝ) (q.2.1 : ℝ) 3 3 1) ⟨(0, 0), by simp⟩
  have hq3 : ¬ (q.1.1 = 3 ∧ q.2.1 = 3) := (Finset.mem_filter.1 hq).2
  have hv : psf (q.1.1 : ℝ) (q.2.1 : ℝ) 3 3 1 < psf 3 3 3 3 1 := psf_centre _ _ hq3
  have hle : ∀ a b : ℕ, a < 7 → b < 7 → ¬ (a = 3 ∧ b = 3) → psf (a : ℝ) (b : ℝ) 3 3 1 ≤ psf (q.1.1 : ℝ) (q.2.1 : ℝ) 3 3 1 := by
    intro a b ha hb hab
    exact hmax (⟨a, ha⟩, ⟨b, hb⟩) (Finset.mem_filter.2 ⟨Finset.mem_univ _, hab⟩)
  have hv0 : 0 ≤ psf (q.1.1 : ℝ) (q.2.1 : ℝ) 3 3 1 := by
    have hw : 0 < width 1 := Lemmas.Centroid.width_pos one_pos
    have h1 := Lemmas.Centroid.span_pos hw (q.1.1 : ℝ) 3
    have h2 := Lemmas.Centroid.span_pos hw (q.2.1 : ℝ) 3
    unfold psf
    positivity
  set v := psf (q.1.1 : ℝ) (q.2.1 : ℝ) 3 3 1
  let image : Stamp 9 16 := fun a b => if a.1 = 0 ∧ b.1 = 0 then 0 else if a.1 = 0 ∧ b.1 = 1 then 1 else if a.1 = 0 ∧ b.1 = 2 then 1000 else
    if 1 ≤ a.1 ∧ a.1 ≤ 7 ∧ 1 ≤ b.1 ∧ b.1 ≤ 14 then 1 / 2 + psf ((a.1 - 1 : ℕ) : ℝ) (((b.1 - 1) % 7 : ℕ) : ℝ) 3 3 1 else 1 / 2
  have himg : ∀ (a b : ℕ) (ha : a < 9) (hb : b < 16), 1 ≤ a ∧ a ≤ 7 ∧ 1 ≤ b ∧ b ≤ 14 →
      image ⟨a, ha⟩ ⟨b, hb⟩ = 1 / 2 + psf ((a - 1 : ℕ) : ℝ) (((b - 1) % 7 : ℕ) : ℝ) 3 3 1 := by
    intro a b ha hb h
    show (if a = 0 ∧ b = 0 then (0 : ℝ) else _) = _
    rw [if_neg (by omega), if_neg (by dsimp only; omega), if_neg (by dsimp only; omega), if_pos h]
  have hg : ∀ a b : ℕ, 1 ≤ a ∧ a ≤ 7 ∧ 1 ≤ b ∧ b ≤ 14 →
      grid (fun a b => convolve image 0.1 a b - 1 / 2) a b = psf ((a - 1 : ℕ) : ℝ) (((b - 1) % 7 : ℕ) : ℝ) 3 3 1 := by
    intro a b h
    rw [grid_eq _ (by omega : a < 9) (by omega : b < 16), convolve_narrow, himg _ _ _ _ h]
    ring
  have hthr : threshold (some v) 0 (1 / 2) = v := by
    unfold threshold
    rw [zero_mul]
    exact max_eq_left hv0
  obtain ⟨rows, h1, h2⟩ := C127_spots image [(0, 0), (0, 1), (0, 2)] second htree (some v) 0 0 0.1 (1 / 2) (1 / 2)
    (by
      simp only [convolve_narrow, List.map_cons, List.map_nil]
      exact clip_case) [(4, 4), (4, 11)] (fun _ => 1) (by
    intro a b
    rw [hthr]
    simp only [isPeak, Bool.and_eq_true, decide_eq_true_eq, gt_iff_lt, List.mem_cons, Prod.mk.injEq, List.not_mem_nil, or_false]
    constructor
    · rintro ⟨⟨h1, h2, h3, h4⟩, -, h5⟩
      rw [hg a b (by omega)] at h5
      by_contra hc
      exact absurd (hle (a - 1) ((b - 1) % 7) (by omega) (by omega) (by omega)) (not_le.2 h5)
    · rintro (⟨rfl, rfl⟩ | ⟨rfl, rfl⟩)
      · refine ⟨by omega, ?_, ?_⟩
        · rw [hg 4 4 (by omega), hg _ 4 (by omega), hg _ 4 (by omega), hg 4 _ (by omega), hg 4 _ (by omega)]
          exact ⟨⟨⟨psf_centre 2 3 (by omega), psf_centre 4 3 (by omega)⟩, psf_centre 3 2 (by omega)⟩, psf_centre 3 4 (by omega)⟩
        · rw [hg 4 4 (by omega)]
          exact hv
      · refine ⟨by omega, ?_, ?_⟩
        · rw [hg 4 11 (by omega), hg _ 11 (by omega), hg _ 11 (by omega), hg 4 _ (by omega), hg 4 _ (by omega)]
          exact ⟨⟨⟨psf_centre 2 3 (by omega), psf_centre 4 3 (by omega)⟩, psf_centre 3 2 (by omega)⟩, psf_centre 3 4 (by omega)⟩
        · rw [hg 4 11 (by omega)]
          exact hv) (by simp) (by simp) (by simp) (.inl (by norm_num)) (by
    intro p hp
    simp only [List.mem_cons, List.not_mem_nil, or_false] at hp
    rcases hp with rfl | rfl
    · norm_num
    · norm_num) (by
    intro p hp a b
    simp only [List.mem_cons, List.not_mem_nil, or_false] at hp
    rcases hp with rfl | rfl
    · dsimp only
      rw [grid_eq _ (by omega : 4 - 3 + a.1 < 9) (by omega : 4 - 3 + b.1 < 16), himg _ _ _ _ (by omega), one_mul]
      have e : 4 - 3 + a.1 - 1 = a.1 := by omega
      have e' : (4 - 3 + b.1 - 1) % 7 = b.1 := by omega
      rw [e, e']
    · dsimp only
      rw [grid_eq _ (by omega : 4 - 3 + a.1 < 9) (by omega : 11 - 3 + b.1 < 16), himg _ _ _ _ (by omega), one_mul]
      have e : 4 - 3 + a.1 - 1 = a.1 := by omega
      have e' : (11 - 3 + b.1 - 1) % 7 = b.1 := by omega
      rw [e, e'])
  refine ⟨image, v, second, rows, htree, h1, ?_⟩
  rw [h2]
  norm_num

end Verif.Props.DetectMany
