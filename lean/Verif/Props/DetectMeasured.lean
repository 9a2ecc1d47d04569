import Verif.Props.DetectImage

/-!
# Property C127: what is measured of a spot in an image (`py/desimeter/detectspots.py` lines 207-258)
-/

namespace Verif.Props.DetectMeasured
open Verif.Py Verif.Model.Detectspots Verif.Model.DetectImage Verif.Props Verif.Props.DetectImage
open Verif.Model.Centroid hiding span

theorem mem_mapM {α β : Type} (f : α → Except PyErr β) : ∀ (l : List α) (r : List β), l.mapM f = .ok r → ∀ b ∈ r, ∃ a ∈ l, f a = .ok b := by
  intro l
  induction l with
  | nil =>
    intro r h b hb
    rw [List.mapM_nil] at h
    cases h
    exact absurd hb List.not_mem_nil
  | cons a l ih =>
    intro r h b hb
    rw [List.mapM_cons] at h
    rcases ha : f a with e | s
    · rw [ha] at h
      exact nomatch h
    · rw [ha] at h
      rcases hl : l.mapM f with e | t
      · rw [hl] at h
        exact nomatch h
      · rw [hl] at h
        have hr : r = s :: t := by
          cases h
          rfl
        rw [hr] at hb
        rcases List.mem_cons.1 hb with rfl | hb
        · exact ⟨a, List.mem_cons_self, ha⟩
        · obtain ⟨a', h1, h2⟩ := ih t hl b hb
          exact ⟨a', List.mem_cons_of_mem _ h1, h2⟩

theorem fit_cast {m m' n n' : ℕ} (hm : m' = m) (hn : n' = n) (s : Stamp m n) (t : Stamp m' n') (h : ∀ i j, t i j = s (Fin.cast hm i) (Fin.cast hn j)) :
    Verif.Model.Centroid.fitcentroid t 1 = Verif.Model.Centroid.fitcentroid s 1 := by
  subst hm hn
  congr 1
  funext i j
  exact h i j

theorem measured_close {n0 n1 : ℕ} (im : Stamp n0 n1) (index : ℕ) (s : Spot) (h : measurePeak n0 n1 (stampFit im) index = .ok s) :
    |s.x - (index % n1 : ℕ)| ≤ 1 ∧ |s.y - (index / n1 : ℕ)| ≤ 1 ∧
    ∃ f, Verif.Model.Centroid.fitcentroid (stamp im (span n0 (index / n1)) (span n1 (index % n1))) 1 = .ok f ∧
      s = ⟨(index % n1 : ℕ) + f.x, (index / n1 : ℕ) + f.y, f.xe, f.ye, f.flux⟩ := by
  unfold measurePeak Verif.Model.Detectspots.fitcentroid at h
  dsimp only at h
  split_ifs at h
  · exact nomatch h
  · unfold stampFit at h
    rcases hf : Verif.Model.Centroid.fitcentroid (stamp im (span n0 (index / n1)) (span n1 (index % n1))) 1 with e | f
    · rw [hf] at h
      exact nomatch h
    · rw [hf] at h
      have hs : s = ⟨(index % n1 : ℕ) + f.x, (index / n1 : ℕ) + f.y, f.xe, f.ye, f.flux⟩ := by
        cases h
        dsimp only
        congr 1
        · ring
        · ring
      obtain ⟨hx, hy⟩ := C101_within_a_pixel _ _ _ f hf
      refine ⟨?_, ?_, f, rfl, hs⟩
      · rw [hs]
        dsimp only
        rw [add_sub_cancel_left]
        exact hx
      · rw [hs]
        dsimp only
        rw [add_sub_cancel_left]
        exact hy

/-- **C127** What is in the table. Every row is of one pixel of the image off the border, where the convolved image, less the pedestal, is above
the threshold and higher than at the four neighbours; its position is within one pixel of it. At least three pixels off the border the
position, the counts and the errors are those that the fit gives for the seven by seven pixels around, less the pedestal; no other pixels
matter. -/
theorem C127_measured {n0 n1 : ℕ} (image : Stamp n0 n1) (samples : List (Fin n0 × Fin n1)) (second : List Spot → ℕ → Option ℕ)
    (minPixel : Option ℝ) (minSpot nsig sigma : ℝ) (rows : List Row)
    (h : detect image samples second minPixel minSpot nsig sigma = .ok rows) :
    ∃ m rms, clip (samples.map fun p => convolve image sigma p.1 p.2) = some (m, rms) ∧ ∀ r ∈ rows, ∃ (i : Fin n0) (j : Fin n1),
      (0 < i.1 ∧ i.1 < n0 - 1 ∧ 0 < j.1 ∧ j.1 < n1 - 1) ∧
      (nsig * rms < convolve image sigma i j - m ∧ (∀ v, minPixel = some v → v < convolve image sigma i j - m)) ∧
      (∀ (i' : Fin n0) (j' : Fin n1), (i'.1 = i.1 ∧ (j'.1 + 1 = j.1 ∨ j'.1 = j.1 + 1)) ∨ (j'.1 = j.1 ∧ (i'.1 + 1 = i.1 ∨ i'.1 = i.1 + 1)) →
        convolve image sigma i' j' < convolve image sigma i j) ∧
      |r.x - (j.1 : ℝ)| ≤ 1 ∧ |r.y - (i.1 : ℝ)| ≤ 1 ∧ (0 < minSpot → minSpot ≤ r.counts) ∧
      ∀ (hi : 3 ≤ i.1 ∧ i.1 + 3 < n0) (hj : 3 ≤ j.1 ∧ j.1 + 3 < n1), ∃ f,
        Verif.Model.Centroid.fitcentroid (fun (a b : Fin 7) => image ⟨i.1 - 3 + a.1, by omega⟩ ⟨j.1 - 3 + b.1, by omega⟩ - m) 1 = .ok f ∧
        r.x = j.1 + f.x ∧ r.y = i.1 + f.y ∧ r.counts = f.flux ∧
        r.ex = (clip (samples.map fun p => image p.1 p.2 - m)).map (fun q => q.2 * f.xe) ∧
        r.ey = (clip (samples.map fun p => image p.1 p.2 - m)).map (fun q => q.2 * f.ye) := by
  unfold detect at h
  dsimp only at h
  rcases hc : clip (samples.map fun p => convolve image sigma p.1 p.2) with _ | ⟨m, rms⟩
  · rw [hc] at h
    exact nomatch h
  rw [hc] at h
  dsimp only at h
  refine ⟨m, rms, hc, ?_⟩
  rcases hd : detectspots n0 n1 (grid fun i j => convolve image sigma i j - m) rms (stampFit fun i j => image i j - m) second minPixel minSpot
    nsig sigma with e | l
  · rw [hd] at h
    exact nomatch h
  rw [hd] at h
  have hrows : rows = l.map (row ((clip (samples.map fun p => image p.1 p.2 - m)).map Prod.snd)) := by
    cases h
    rfl
  intro r hr
  rw [hrows, List.mem_map] at hr
  obtain ⟨s, hs, rfl⟩ := hr
  unfold detectspots at hd
  dsimp only at hd
  split_ifs at hd
  rcases hm : (peakIndices n0 n1 (grid fun i j => convolve image sigma i j - m) (threshold minPixel nsig rms)).mapM
    (measurePeak n0 n1 (stampFit fun i j => image i j - m)) with e | l'
  · rw [hm] at hd
    exact nomatch hd
  rw [hm] at hd
  have hl : l = dedup second sigma 100 (countFilter minSpot l') := by
    cases hd
    rfl
  rw [hl] at hs
  have hs' := (Det.dedup_sublist second sigma 100 _).subset hs
  have hcount : s ∈ l' ∧ (0 < minSpot → minSpot ≤ s.counts) := by
    unfold countFilter at hs'
    split_ifs at hs' with hp
    · rw [List.mem_filter, decide_eq_true_eq] at hs'
      exact ⟨hs'.1, fun _ => hs'.2⟩
    · exact ⟨hs', fun h => absurd h hp⟩
  obtain ⟨index, hidx, hmeas⟩ := mem_mapM _ _ _ hm s hcount.1
  have hn1 : 0 < n1 := by
    rcases Nat.eq_zero_or_pos n1 with h0 | h0
    · subst h0
      unfold peakIndices at hidx
      rw [List.mem_filter, List.mem_range] at hidx
      omega
    · exact h0
  have hj1 : index % n1 < n1 := Nat.mod_lt _ hn1
  have hdiv : index / n1 * n1 + index % n1 = index := Nat.div_add_mod' index n1
  rw [← hdiv, (C58_peaks n0 n1 _ _ _ _ hj1).1] at hidx
  obtain ⟨a1, a2, a3, a4, ht, b1, b2, b3, b4⟩ := hidx
  have hi1 : index / n1 < n0 := by omega
  have g : ∀ (i j : ℕ) (hi : i < n0) (hj : j < n1), grid (fun i j => convolve image sigma i j - m) i j = convolve image sigma ⟨i, hi⟩ ⟨j, hj⟩ - m :=
    fun i j hi hj => grid_eq _ hi hj
  rw [g _ _ hi1 hj1] at ht b1 b2 b3 b4
  rw [g _ _ (by omega) hj1] at b1
  rw [g _ _ (by omega) hj1] at b2
  rw [g _ _ hi1 (by omega)] at b3
  rw [g _ _ hi1 (by omega)] at b4
  obtain ⟨cx, cy, f, hf, hsf⟩ := measured_close _ _ _ hmeas
  refine ⟨⟨index / n1, hi1⟩, ⟨index % n1, hj1⟩, ⟨a1, a2, a3, a4⟩, ?_, ?_, cx, cy, hcount.2, ?_⟩
  · unfold threshold at ht
    rcases minPixel with _ | v
    · exact ⟨ht, fun v hv => nomatch hv⟩
    · refine ⟨lt_of_le_of_lt (le_max_right v _) ht, fun w hw => ?_⟩
      cases hw
      exact lt_of_le_of_lt (le_max_left v _) ht
  · rintro ⟨i', hi'⟩ ⟨j', hj'⟩ hnb
    dsimp only at hnb
    rcases hnb with ⟨rfl, hj | hj⟩ | ⟨rfl, hi | hi⟩
    · have : j' = index % n1 - 1 := by omega
      subst this
      linarith
    · subst hj
      linarith
    · have : i' = index / n1 - 1 := by omega
      subst this
      linarith
    · subst hi
      linarith
  · intro hi hj
    dsimp only at hi hj
    have hr : span n0 (index / n1) = (index / n1 - 3, index / n1 + 4) := by
      unfold span
      rw [if_pos hi.1, min_eq_left (by omega), min_eq_left (by omega)]
    have hcs : span n1 (index % n1) = (index % n1 - 3, index % n1 + 4) := by
      unfold span
      rw [if_pos hj.1, min_eq_left (by omega), min_eq_left (by omega)]
    rw [hr, hcs] at hf
    refine ⟨f, ?_, ?_⟩
    · rw [← hf]
      symm
      refine fit_cast (by dsimp only; omega) (by dsimp only; omega) _ _ fun a b => ?_
      have ha : a.1 < index / n1 + 4 - (index / n1 - 3) := a.2
      have hb : b.1 < index % n1 + 4 - (index % n1 - 3) := b.2
      unfold stamp
      rw [grid_eq _ (by dsimp only; omega) (by dsimp only; omega)]
      rfl
    · rw [hsf]
      unfold row
      dsimp only
      refine ⟨rfl, rfl, rfl, ?_, ?_⟩
      · rw [Option.map_map]
        rfl
      · rw [Option.map_map]
        rfl

/-- **C127** A spot by itself. If one pixel, at least three off the border, is the only peak of the convolved image above the threshold, and
the seven by seven pixels around it are the pedestal plus a Gaussian spot centred in it with enough counts, then the table has one row, with
exactly this position and these counts. -/
theorem C127_spot {n0 n1 : ℕ} (image : Stamp n0 n1) (samples : List (Fin n0 × Fin n1)) (second : List Spot → ℕ → Option ℕ)
    (hsec : ∀ s i, second [s] i = none) (minPixel : Option ℝ) (minSpot nsig sigma : ℝ) (i j : ℕ) (hi : 3 ≤ i ∧ i + 3 < n0) (hj : 3 ≤ j ∧ j + 3 < n1)
    (m rms f : ℝ) (hc : clip (samples.map fun p => convolve image sigma p.1 p.2) = some (m, rms)) (hf : f ≠ 0) (hmin : minSpot ≤ f)
    (hpeak : ∀ a b, isPeak n0 n1 (grid fun a b => convolve image sigma a b - m) (threshold minPixel nsig rms) a b = true ↔ a = i ∧ b = j)
    (hspot : ∀ a b : Fin 7, image ⟨i - 3 + a.1, by omega⟩ ⟨j - 3 + b.1, by omega⟩ = m + f * psf (a.1 : ℝ) (b.1 : ℝ) 3 3 1) :
    ∃ ex ey, detect image samples second minPixel minSpot nsig sigma = .ok [⟨j, i, ex, ey, f⟩] := by
  have hn1 : 0 < n1 := by omega
  have e1 : (i * n1 + j) / n1 = i := by
    rw [Nat.add_comm, Nat.add_mul_div_right _ _ hn1, Nat.div_eq_of_lt (by omega), zero_add]
  have e2 : (i * n1 + j) % n1 = j := by
    rw [Nat.add_comm, Nat.add_mul_mod_self_right, Nat.mod_eq_of_lt (by omega)]
  have hpk : peakIndices n0 n1 (grid fun a b => convolve image sigma a b - m) (threshold minPixel nsig rms) = [i * n1 + j] := by
    have hp : (peakIndices n0 n1 (grid fun a b => convolve image sigma a b - m) (threshold minPixel nsig rms)).Pairwise (· < ·) :=
      List.Pairwise.sublist List.filter_sublist List.pairwise_lt_range
    have hmem : ∀ x, x ∈ peakIndices n0 n1 (grid fun a b => convolve image sigma a b - m) (threshold minPixel nsig rms) ↔ x = i * n1 + j := by
      intro x
      unfold peakIndices
      rw [List.mem_filter, List.mem_range, hpeak]
      constructor
      · rintro ⟨-, h1, h2⟩
        rw [← h1, ← h2]
        exact (Nat.div_add_mod' x n1).symm
      · rintro rfl
        refine ⟨?_, e1, e2⟩
        calc i * n1 + j < i * n1 + n1 := by omega
          _ = (i + 1) * n1 := by ring
          _ ≤ n0 * n1 := Nat.mul_le_mul_right _ (by omega)
    revert hp hmem
    generalize peakIndices n0 n1 (grid fun a b => convolve image sigma a b - m) (threshold minPixel nsig rms) = l
    intro hp hmem
    match l, hp, hmem with
    | [], _, hmem => exact absurd ((hmem _).2 rfl) List.not_mem_nil
    | [x], _, hmem => rw [(hmem x).1 List.mem_cons_self]
    | x :: y :: t, hp, hmem =>
      have hx := (hmem x).1 List.mem_cons_self
      have hy := (hmem y).1 (List.mem_cons_of_mem _ List.mem_cons_self)
      have := (List.pairwise_cons.1 hp).1 y List.mem_cons_self
      omega
  obtain ⟨xe, ye, hfit⟩ := C101_exact (n0 := 7) (n1 := 7) (by omega) (by omega) f 1 1 one_pos hf
  have hr : span n0 i = (i - 3, i + 4) := by
    unfold span
    rw [if_pos hi.1, min_eq_left (by omega), min_eq_left (by omega)]
  have hcs : span n1 j = (j - 3, j + 4) := by
    unfold span
    rw [if_pos hj.1, min_eq_left (by omega), min_eq_left (by omega)]
  have hst : Verif.Model.Centroid.fitcentroid (stamp (fun a b => image a b - m) (i - 3, i + 4) (j - 3, j + 4)) 1 = .ok ⟨0, 0, xe, ye, f⟩ := by
    rw [← hfit]
    refine fit_cast (by dsimp only; omega) (by dsimp only; omega) _ _ fun a b => ?_
    have ha : a.1 < i + 4 - (i - 3) := a.2
    have hb : b.1 < j + 4 - (j - 3) := b.2
    unfold stamp
    rw [grid_eq _ (by dsimp only; omega) (by dsimp only; omega)]
    have := hspot ⟨a.1, by omega⟩ ⟨b.1, by omega⟩
    dsimp only at this ⊢
    rw [this]
    norm_num
  have hmeas : measurePeak n0 n1 (stampFit fun a b => image a b - m) (i * n1 + j) = .ok ⟨j, i, xe, ye, f⟩ := by
    unfold measurePeak Verif.Model.Detectspots.fitcentroid
    dsimp only
    rw [e1, e2, hr, hcs, if_neg (by dsimp only; omega)]
    unfold stampFit
    rw [hst]
    show Except.ok _ = Except.ok _
    dsimp only
    congr 2
    · ring
    · ring
  unfold detect
  dsimp only
  rw [hc]
  dsimp only
  unfold detectspots
  dsimp only
  rw [hpk, if_neg (by simp), if_neg (by simp), List.mapM_cons, List.mapM_nil, hmeas]
  have hcf : countFilter minSpot [(⟨j, i, xe, ye, f⟩ : Spot)] = [⟨j, i, xe, ye, f⟩] := by
    unfold countFilter
    split_ifs
    · simp [hmin]
    · rfl
  have hdd : dedup second sigma 100 [(⟨j, i, xe, ye, f⟩ : Spot)] = [⟨j, i, xe, ye, f⟩] := by
    have : dedupStep second sigma [(⟨j, i, xe, ye, f⟩ : Spot)] = none := by
      unfold dedupStep firstBad
      simp [hsec, List.range_succ]
    unfold dedup
    rw [this]
  refine ⟨((clip (samples.map fun p => image p.1 p.2 - m)).map Prod.snd).map (· * xe), ((clip (samples.map fun p => image p.1 p.2 - m)).map Prod.snd).map (· * ye), ?_⟩
  show Except.ok (List.map _ (dedup second sigma 100 (countFilter minSpot [(⟨j, i, xe, ye, f⟩ : Spot)]))) = _
  rw [hcf, hdd]
  rfl

/-! ### A concrete case -/

theorem span_centre {a : ℝ} (h : 0 < a) (i : ℕ) (hi : i ≠ 3) : Verif.Model.Centroid.span a i 3 < Verif.Model.Centroid.span a 3 3 := by
  have hmv : ∀ x : ℝ, ∃ t, a * (x - 0.5 - 3) < t ∧ t < a * (x + 0.5 - 3) ∧
      Verif.Model.Centroid.span a x 3 = 2 / Real.sqrt Real.pi * Real.exp (-t ^ 2) * a := by
    intro x
    have hlt : a * (x - 0.5 - 3) < a * (x + 0.5 - 3) := mul_lt_mul_of_pos_left (by linarith) h
    obtain ⟨t, ht, he⟩ := exists_hasDerivAt_eq_slope erf (fun t => 2 / Real.sqrt Real.pi * Real.exp (-t ^ 2)) hlt
      (fun t _ => (Lemmas.Centroid.hasDerivAt_erf t).continuousAt.continuousWithinAt) fun t _ => Lemmas.Centroid.hasDerivAt_erf t
    refine ⟨t, ht.1, ht.2, ?_⟩
    have hne : a * (x + 0.5 - 3) - a * (x - 0.5 - 3) = a := by ring
    rw [he, hne, div_mul_cancel₀ _ h.ne']
    rfl
  obtain ⟨t, ht1, ht2, he⟩ := hmv i
  obtain ⟨u, hu1, hu2, hu⟩ := hmv 3
  rw [he, hu]
  have hpi := Lemmas.Centroid.sqrtpi_pos
  refine mul_lt_mul_of_pos_right (mul_lt_mul_of_pos_left (Real.exp_lt_exp.2 ?_) (by positivity)) h
  have hu' : u ^ 2 < (a / 2) ^ 2 := by
    rw [sq_lt_sq, abs_of_pos (by positivity : 0 < a / 2), abs_lt]
    constructor
    · linarith
    · linarith
  have ht' : (a / 2) ^ 2 < t ^ 2 := by
    rw [sq_lt_sq, abs_of_pos (by positivity : 0 < a / 2), lt_abs]
    rcases lt_or_gt_of_ne hi with hlt | hgt
    · right
      have : (i : ℝ) ≤ 2 := by exact_mod_cast Nat.le_of_lt_succ hlt
      nlinarith
    · left
      have : (4 : ℝ) ≤ i := by exact_mod_cast hgt
      nlinarith
  linarith

theorem psf_centre (i j : ℕ) (h : ¬ (i = 3 ∧ j = 3)) : psf (i : ℝ) (j : ℝ) 3 3 1 < psf 3 3 3 3 1 := by
  have hw : 0 < width 1 := Lemmas.Centroid.width_pos one_pos
  have key : ∀ k : ℕ, 0 < Verif.Model.Centroid.span (width 1) k 3 ∧
      Verif.Model.Centroid.span (width 1) k 3 ≤ Verif.Model.Centroid.span (width 1) 3 3 ∧
      (k ≠ 3 → Verif.Model.Centroid.span (width 1) k 3 < Verif.Model.Centroid.span (width 1) 3 3) := by
    intro k
    refine ⟨Lemmas.Centroid.span_pos hw _ _, ?_, span_centre hw k⟩
    by_cases hk : k = 3
    · rw [hk]
      norm_num
    · exact (span_centre hw k hk).le
  obtain ⟨i1, i2, i3⟩ := key i
  obtain ⟨j1, j2, j3⟩ := key j
  have hpos := Lemmas.Centroid.span_pos hw 3 3
  unfold psf
  by_cases hi : i = 3
  · have := j3 fun hj => h ⟨hi, hj⟩
    nlinarith
  · have := i3 hi
    nlinarith

/-- A spot in an image of nine by nine pixels that is found (`C127_spot`, `C127_measured`). -/
example : ∃ (image : Stamp 9 9) (v : ℝ) (ex ey : Option ℝ),
    detect image [(0, 0), (0, 1), (0, 2)] (fun _ _ => none) (some v) 0 0 0.1 = .ok [⟨4, 4, ex, ey, 1⟩] := by
  obtain ⟨q, hq, hmax⟩ := Finset.exists_max_image ((Finset.univ : Finset (Fin 7 × Fin 7)).filter fun q => ¬ (q.1.1 = 3 ∧ q.2.1 = 3))
    (fun q => psf (q.1.1 : ℝ) (q.2.1 : ℝ) 3 3 1) ⟨(0, 0), by simp⟩
  have hq3 : ¬ (q.1.1 = 3 ∧ q.2.1 = 3) := (Finset.mem_filter.1 hq).2
  have hv : psf (q.1.1 : ℝ) (q.2.1 : ℝ) 3 3 1 < psf 3 3 3 3 1 := psf_centre _ _ hq3
  have hle : ∀ a b : ℕ, a < 7 → b < 7 → ¬ (a = 3 ∧ b = 3) → psf (a : ℝ) (b : ℝ) 3 3 1 ≤ psf (q.1.1 : ℝ) (q.2.1 : ℝ) 3 3 1 := by
    intro a b ha hb hab
    exact hmax (⟨a, ha⟩, ⟨b, hb⟩) (Finset.mem_filter.2 ⟨Finset.mem_univ _, hab⟩)
  have hv0 : 0 ≤ psf (q.1.1 : ℝ) (q.2.1 : ℝ) 3 3 1 := by
    have hw : 0 < width 1 := Lemmas.Centroid.width_pos one_pos
    have h1 := Lemmas.Centroid.span_pos hw (q.1.1 : ℝ) 3
    have h2 := Lemmas.Centroid.span_pos hw (q.2.1 : ℝ) 3
    unfold psf
    positivity
  set v := psf (q.1.1 : ℝ) (q.2.1 : ℝ) 3 3 1
  let image : Stamp 9 9 := fun a b => if a.1 = 0 ∧ b.1 = 0 then 0 else if a.1 = 0 ∧ b.1 = 1 then 1 else if a.1 = 0 ∧ b.1 = 2 then 1000 else
    if 1 ≤ a.1 ∧ a.1 ≤ 7 ∧ 1 ≤ b.1 ∧ b.1 ≤ 7 then 1 / 2 + psf ((a.1 - 1 : ℕ) : ℝ) ((b.1 - 1 : ℕ) : ℝ) 3 3 1 else 1 / 2
  have himg : ∀ (a b : ℕ) (ha : a < 9) (hb : b < 9), 1 ≤ a ∧ a ≤ 7 ∧ 1 ≤ b ∧ b ≤ 7 →
      image ⟨a, ha⟩ ⟨b, hb⟩ = 1 / 2 + psf ((a - 1 : ℕ) : ℝ) ((b - 1 : ℕ) : ℝ) 3 3 1 := by
    intro a b ha hb h
    show (if a = 0 ∧ b = 0 then (0 : ℝ) else _) = _
    rw [if_neg (by omega), if_neg (by dsimp only; omega), if_neg (by dsimp only; omega), if_pos h]
  have hg : ∀ a b : ℕ, 1 ≤ a ∧ a ≤ 7 ∧ 1 ≤ b ∧ b ≤ 7 →
      grid (fun a b => convolve image 0.1 a b - 1 / 2) a b = psf ((a - 1 : ℕ) : ℝ) ((b - 1 : ℕ) : ℝ) 3 3 1 := by
    intro a b h
    rw [grid_eq _ (by omega : a < 9) (by omega : b < 9), convolve_narrow, himg _ _ _ _ h]
    ring
  have hthr : threshold (some v) 0 (1 / 2) = v := by
    unfold threshold
    rw [zero_mul]
    exact max_eq_left hv0
  refine ⟨image, v, ?_⟩
  have := C127_spot image [(0, 0), (0, 1), (0, 2)] (fun _ _ => none) (fun _ _ => rfl) (some v) 0 0 0.1 4 4 (by omega) (by omega) (1 / 2) (1 / 2) 1
    (by
      simp only [convolve_narrow, List.map_cons, List.map_nil]
      exact clip_case) one_ne_zero zero_le_one ?_ ?_
  · exact_mod_cast this
  · intro a b
    rw [hthr]
    simp only [isPeak, Bool.and_eq_true, decide_eq_true_eq, gt_iff_lt]
    constructor
    · rintro ⟨⟨h1, h2, h3, h4⟩, -, h5⟩
      rw [hg a b (by omega)] at h5
      by_contra hc
      exact absurd (hle (a - 1) (b - 1) (by omega) (by omega) (by omega)) (not_le.2 h5)
    · rintro ⟨rfl, rfl⟩
      refine ⟨by omega, ?_, ?_⟩
      · rw [hg 4 4 (by omega), hg _ 4 (by omega), hg _ 4 (by omega), hg 4 _ (by omega), hg 4 _ (by omega)]
        exact ⟨⟨⟨psf_centre 2 3 (by omega), psf_centre 4 3 (by omega)⟩, psf_centre 3 2 (by omega)⟩, psf_centre 3 4 (by omega)⟩
      · rw [hg 4 4 (by omega)]
        exact hv
  · intro a b
    rw [himg _ _ _ _ (by omega), one_mul]
    have e : ∀ k : ℕ, 4 - 3 + k - 1 = k := by omega
    rw [e, e]

end Verif.Props.DetectMeasured
