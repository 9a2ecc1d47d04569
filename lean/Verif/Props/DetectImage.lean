import Verif.Model.DetectImage
import Verif.Props.Centroid
import Verif.Props.Detectspots
import Verif.Props.MatchPositioners
import Verif.Props.Circles
import Verif.Props.FitCircles
import Verif.Props.CircleStart

/-!
# Property C127: pedestal, noise and detection of spots in an image (`py/desimeter/detectspots.py`)
-/

namespace Verif.Props.DetectImage
open Verif.Py Verif.Model.Centroid Verif.Model.Detectspots Verif.Model.DetectImage Verif.Model.Circles Verif.Model.FitCircles Verif.Props
  Verif.Props.Lemmas.Centroid
open Verif.Model.MatchPositioners (median)

/-! ### Medians -/

/-- With more than half of the values in an interval, the median is in it. -/
theorem median_in {l : List ℝ} {lo hi : ℝ} (h : l.length < 2 * (l.filter fun v => decide (lo ≤ v ∧ v ≤ hi)).length) :
    lo ≤ median l ∧ median l ≤ hi := by
  have hm := Verif.Props.MatchPos.median_spec l
  unfold IsMedian at hm
  have sub : ∀ f g : ℝ → Bool, (∀ x, f x = true → g x = true) → (l.filter f).length ≤ (l.filter g).length := by
    intro f g hfg
    rw [← List.countP_eq_length_filter, ← List.countP_eq_length_filter]
    exact List.countP_mono_left fun x _ => hfg x
  constructor
  · by_contra hc
    rw [not_le] at hc
    have := sub (fun v => decide (lo ≤ v ∧ v ≤ hi)) (fun v => decide (median l < v)) (by
      intro x hx
      simp only [decide_eq_true_eq] at hx ⊢
      linarith [hx.1])
    omega
  · by_contra hc
    rw [not_le] at hc
    have := sub (fun v => decide (lo ≤ v ∧ v ≤ hi)) (fun v => decide (v < median l)) (by
      intro x hx
      simp only [decide_eq_true_eq] at hx ⊢
      linarith [hx.2])
    omega

theorem median_map (f : ℝ → ℝ) (hf : Monotone f) (hmid : ∀ a b, (f a + f b) / 2 = f ((a + b) / 2)) {l : List ℝ} (hl : l ≠ []) :
    median (l.map f) = f (median l) := by
  symm
  rw [← Verif.Props.FitCircles.middle_iff]
  have hpos : 0 < l.length := List.length_pos_iff.2 hl
  have hs := Verif.Lemmas.length_pySort (id : ℝ → ℝ) l
  have h1 : (l.length - 1) / 2 < (pySort (id : ℝ → ℝ) l).length := by omega
  have h2 : l.length / 2 < (pySort (id : ℝ → ℝ) l).length := by omega
  refine ⟨(pySort id l).map f, (Verif.Lemmas.perm_pySort _ _).map f, ?_, ?_⟩
  · rw [List.pairwise_map]
    exact (Verif.Lemmas.sorted_pySort (id : ℝ → ℝ) l).imp fun h => hf h
  · unfold median
    rw [← hmid]
    simp only [List.getD, List.getElem?_map, List.length_map, List.getElem?_eq_getElem h1, List.getElem?_eq_getElem h2, Option.getD_some,
      Option.map_some]

/-! ### Mean and rms -/

theorem mean_map_add (l : List ℝ) (c : ℝ) (hl : l ≠ []) : meanL (l.map (· + c)) = meanL l + c := by
  have hn : (l.length : ℝ) ≠ 0 := by
    have := List.length_pos_iff.2 hl
    positivity
  unfold meanL
  rw [List.length_map, List.sum_map_add]
  simp only [List.map_id', List.map_const', List.sum_replicate, nsmul_eq_mul]
  field_simp

theorem mean_map_mul (l : List ℝ) (k : ℝ) : meanL (l.map (k * ·)) = k * meanL l := by
  unfold meanL
  rw [List.length_map, List.sum_map_mul_left, List.map_id', mul_div_assoc]

theorem std_add (l : List ℝ) (c : ℝ) (hl : l ≠ []) : std (l.map (· + c)) = std l := by
  unfold std
  rw [mean_map_add l c hl, List.map_map]
  congr 3
  funext v
  simp only [Function.comp_apply]
  ring

theorem std_mul (l : List ℝ) (k : ℝ) (hk : 0 ≤ k) : std (l.map (k * ·)) = k * std l := by
  unfold std
  rw [mean_map_mul, List.map_map]
  have e : ((fun v => (v - k * meanL l) ^ 2) ∘ fun x => k * x) = fun v => k ^ 2 * (v - meanL l) ^ 2 := by
    funext v
    simp only [Function.comp_apply]
    ring
  rw [e, show (l.map fun v => k ^ 2 * (v - meanL l) ^ 2) = (l.map fun v => (v - meanL l) ^ 2).map (k ^ 2 * ·) by rw [List.map_map]; rfl,
    mean_map_mul, Real.sqrt_mul (sq_nonneg k), Real.sqrt_sq hk]

theorem mean_bounds {l : List ℝ} {lo hi : ℝ} (hl : l ≠ []) (h : ∀ v ∈ l, lo ≤ v ∧ v ≤ hi) : lo ≤ meanL l ∧ meanL l ≤ hi := by
  have hn : (0 : ℝ) < l.length := by exact_mod_cast List.length_pos_iff.2 hl
  unfold meanL
  rw [le_div_iff₀ hn, div_le_iff₀ hn]
  constructor
  · have := List.card_nsmul_le_sum l lo fun v hv => (h v hv).1
    rw [nsmul_eq_mul] at this
    linarith
  · have := List.sum_le_card_nsmul l hi fun v hv => (h v hv).2
    rw [nsmul_eq_mul] at this
    linarith

/-- The rms about the mean is not larger than the largest distance from any number. -/
theorem std_le {l : List ℝ} {m w : ℝ} (hl : l ≠ []) (hw : 0 ≤ w) (h : ∀ v ∈ l, |v - m| ≤ w) : std l ≤ w := by
  have hn : (0 : ℝ) < l.length := by exact_mod_cast List.length_pos_iff.2 hl
  unfold std
  apply Real.sqrt_le_iff.2 ⟨hw, ?_⟩
  have key : ∀ t : List ℝ, ∀ a : ℝ, (t.map fun v => (v - a) ^ 2).sum = (t.map fun v => (v - m) ^ 2).sum - 2 * (a - m) * (t.sum - t.length * m) + t.length * (a - m) ^ 2 := by
    intro t a
    induction t with
    | nil => simp
    | cons b t ih =>
      simp only [List.map_cons, List.sum_cons, List.length_cons, Nat.cast_add, Nat.cast_one, ih]
      ring
  have hb : (l.map fun v => (v - m) ^ 2).sum ≤ l.length * w ^ 2 := by
    have := List.sum_le_card_nsmul (l.map fun v => (v - m) ^ 2) (w ^ 2) (by
      intro x hx
      obtain ⟨v, hv, rfl⟩ := List.mem_map.1 hx
      rw [← sq_abs]
      exact pow_le_pow_left₀ (abs_nonneg _) (h v hv) 2)
    rw [nsmul_eq_mul, List.length_map] at this
    exact this
  have hs : l.sum = l.length * meanL l := by
    unfold meanL
    field_simp
  change ((l.map fun v => (v - meanL l) ^ 2).sum / ((l.map fun v => (v - meanL l) ^ 2).length : ℝ)) ≤ w ^ 2
  rw [List.length_map, div_le_iff₀ hn, key l (meanL l), hs]
  nlinarith [mul_nonneg hn.le (sq_nonneg (meanL l - m))]

/-! ### Pedestal and noise -/

theorem clip_add (l : List ℝ) (c : ℝ) (hl : l ≠ []) : clip (l.map (· + c)) = (clip l).map fun p => (p.1 + c, p.2) := by
  have hm : median (l.map (· + c)) = median l + c := median_map (· + c) (fun _ _ h => add_le_add_left h c) (fun a b => by ring) hl
  unfold clip
  simp only [hm, List.map_map, List.filter_map]
  have e1 : ((fun v => |v - (median l + c)|) ∘ fun x => x + c) = fun v => |v - median l| := by
    funext v
    simp only [Function.comp_apply, add_sub_add_right_eq_sub]
  rw [e1]
  have e2 : ((fun v => decide (|v - (median l + c)| < 4 * (1.4826 * median (List.map (fun v => |v - median l|) l)))) ∘ fun x => x + c) =
      fun v => decide (|v - median l| < 4 * (1.4826 * median (List.map (fun v => |v - median l|) l))) := by
    funext v
    simp only [Function.comp_apply, add_sub_add_right_eq_sub]
  rw [e2, List.length_map]
  split_ifs with h
  · rfl
  · have hne := List.length_pos_iff.1 (Nat.pos_of_ne_zero h)
    rw [mean_map_add _ _ hne, std_add _ _ hne]
    rfl

theorem clip_mul (l : List ℝ) (k : ℝ) (hk : 0 < k) (hl : l ≠ []) : clip (l.map (k * ·)) = (clip l).map fun p => (k * p.1, k * p.2) := by
  have mono : Monotone (k * ·) := fun _ _ h => mul_le_mul_of_nonneg_left h hk.le
  have hm : median (l.map (k * ·)) = k * median l := median_map _ mono (fun a b => by ring) hl
  unfold clip
  simp only [hm, List.map_map, List.filter_map]
  have e0 : ∀ v, |k * v - k * median l| = k * |v - median l| := by
    intro v
    rw [← mul_sub, abs_mul, abs_of_pos hk]
  have e1 : ((fun v => |v - k * median l|) ∘ fun x => k * x) = fun v => k * |v - median l| := by
    funext v
    exact e0 v
  have e3 : median (l.map fun v => k * |v - median l|) = k * median (l.map fun v => |v - median l|) := by
    have := median_map _ mono (fun a b => by ring) (l := l.map fun v => |v - median l|) (by simpa using hl)
    rw [List.map_map] at this
    exact this
  rw [e1, e3]
  have e2 : ((fun v => decide (|v - k * median l| < 4 * (1.4826 * (k * median (List.map (fun v => |v - median l|) l))))) ∘ fun x => k * x) =
      fun v => decide (|v - median l| < 4 * (1.4826 * median (List.map (fun v => |v - median l|) l))) := by
    funext v
    simp only [Function.comp_apply, e0]
    apply decide_eq_decide.2
    rw [show 4 * (1.4826 * (k * median (List.map (fun v => |v - median l|) l))) = k * (4 * (1.4826 * median (List.map (fun v => |v - median l|) l))) by ring,
      mul_lt_mul_iff_right₀ hk]
  rw [e2, List.length_map]
  split_ifs with h
  · rfl
  · rw [mean_map_mul, std_mul _ _ hk.le]
    rfl

/-- **C127** The pedestal and the noise are robust: if more than half of the values are in an interval, whatever the others are, the pedestal
is within six lengths of the interval from it and the rms at most six lengths. -/
theorem C127_robust (vals : List ℝ) (lo hi m rms : ℝ) (h : vals.length < 2 * (vals.filter fun v => decide (lo ≤ v ∧ v ≤ hi)).length)
    (hc : clip vals = some (m, rms)) : lo - 6 * (hi - lo) ≤ m ∧ m ≤ hi + 6 * (hi - lo) ∧ 0 ≤ rms ∧ rms ≤ 6 * (hi - lo) := by
  obtain ⟨h1, h2⟩ := median_in h
  have hd : median (vals.map fun v => |v - median vals|) ≤ hi - lo := by
    refine (median_in (lo := 0) (hi := hi - lo) ?_).2
    rw [List.length_map, List.filter_map, List.length_map]
    refine lt_of_lt_of_le h (Nat.mul_le_mul_left 2 ?_)
    rw [← List.countP_eq_length_filter, ← List.countP_eq_length_filter]
    refine List.countP_mono_left fun x _ hx => ?_
    simp only [decide_eq_true_eq, Function.comp_apply] at hx ⊢
    exact ⟨abs_nonneg _, abs_le.2 ⟨by linarith [hx.1], by linarith [hx.2]⟩⟩
  unfold clip at hc
  dsimp only at hc
  split_ifs at hc with h0
  rw [Option.some.injEq, Prod.mk.injEq] at hc
  obtain ⟨rfl, rfl⟩ := hc
  have hne := List.length_pos_iff.1 (Nat.pos_of_ne_zero h0)
  have hall : ∀ v ∈ vals.filter (fun v => decide (|v - median vals| < 4 * (1.4826 * median (vals.map fun v => |v - median vals|)))),
      |v - median vals| ≤ 6 * (hi - lo) := by
    intro v hv
    have := (List.mem_filter.1 hv).2
    rw [decide_eq_true_eq] at this
    have h3 : 0 ≤ hi - lo := by linarith
    norm_num at this ⊢
    linarith
  have hb := mean_bounds hne fun v hv => (⟨by linarith [(abs_le.1 (hall v hv)).1], by linarith [(abs_le.1 (hall v hv)).2]⟩ :
    lo - 6 * (hi - lo) ≤ v ∧ v ≤ hi + 6 * (hi - lo))
  exact ⟨hb.1, hb.2, Real.sqrt_nonneg _, std_le hne (by linarith) hall⟩

/-- **C127** (finding) If more than half of the values drawn from the convolved image are the same, no value is accepted, the pedestal is NaN
and `detectspots` ends with a `RuntimeError` ("no spot found"), whatever spots there are. -/
theorem C127_flat {n0 n1 : ℕ} (image : Stamp n0 n1) (samples : List (Fin n0 × Fin n1)) (second : List Spot → ℕ → Option ℕ)
    (minPixel : Option ℝ) (minSpot nsig sigma v : ℝ)
    (h : samples.length < 2 * (samples.filter fun p => decide (convolve image sigma p.1 p.2 = v)).length) :
    detect image samples second minPixel minSpot nsig sigma = .error .runtimeError := by
  have hc : clip (samples.map fun p => convolve image sigma p.1 p.2) = none := by
    have hmed : median (samples.map fun p => convolve image sigma p.1 p.2) = v := by
      have := median_in (l := samples.map fun p => convolve image sigma p.1 p.2) (lo := v) (hi := v) (by
        rw [List.length_map, List.filter_map, List.length_map]
        refine lt_of_lt_of_le h (Nat.mul_le_mul_left 2 ?_)
        rw [← List.countP_eq_length_filter, ← List.countP_eq_length_filter]
        refine List.countP_mono_left fun x _ hx => ?_
        simp only [decide_eq_true_eq, Function.comp_apply] at hx ⊢
        exact ⟨hx.ge, hx.le⟩)
      linarith [this.1, this.2]
    have hdev : median ((samples.map fun p => convolve image sigma p.1 p.2).map fun x => |x - v|) = 0 := by
      have := median_in (l := (samples.map fun p => convolve image sigma p.1 p.2).map fun x => |x - v|) (lo := 0) (hi := 0) (by
        rw [List.map_map, List.length_map, List.filter_map, List.length_map]
        refine lt_of_lt_of_le h (Nat.mul_le_mul_left 2 ?_)
        rw [← List.countP_eq_length_filter, ← List.countP_eq_length_filter]
        refine List.countP_mono_left fun x _ hx => ?_
        simp only [decide_eq_true_eq, Function.comp_apply] at hx ⊢
        simp [hx])
      linarith [this.1, this.2]
    unfold clip
    simp only [hmed, hdev]
    rw [if_pos]
    rw [List.length_eq_zero_iff, List.filter_eq_nil_iff]
    intro x _
    simp
  unfold detect
  dsimp only
  rw [hc]

/-- The pixels within three sigma along the axes are in the image. -/
def Deep (n0 n1 : ℕ) (sigma : ℝ) (i j : ℕ) : Prop :=
  ⌊3 * sigma⌋ ≤ (i : ℤ) ∧ (i : ℤ) + ⌊3 * sigma⌋ < n0 ∧ ⌊3 * sigma⌋ ≤ (j : ℤ) ∧ (j : ℤ) + ⌊3 * sigma⌋ < n1

theorem pad_in {n0 n1 : ℕ} (image : Stamp n0 n1) {k l : ℤ} (h : (0 ≤ k ∧ k < n0) ∧ 0 ≤ l ∧ l < n1) :
    ∃ (a : Fin n0) (b : Fin n1), (a : ℤ) = k ∧ (b : ℤ) = l ∧ pad image k l = image a b := by
  refine ⟨⟨k.toNat, by omega⟩, ⟨l.toNat, by omega⟩, by simp; omega, by simp; omega, ?_⟩
  unfold pad
  rw [dif_pos h]

/-- **C127** (finding) In particular an image without noise, that is the same number everywhere around more than half of the pixels drawn, has
"no spot found". -/
theorem C127_noiseless {n0 n1 : ℕ} (image : Stamp n0 n1) (samples : List (Fin n0 × Fin n1)) (second : List Spot → ℕ → Option ℕ)
    (minPixel : Option ℝ) (minSpot nsig sigma v : ℝ) (hs : 0 < sigma) (quiet : Fin n0 × Fin n1 → Bool)
    (hq : ∀ p, quiet p = true → Deep n0 n1 sigma p.1 p.2 ∧ ∀ (a : Fin n0) (b : Fin n1), |(p.1 : ℤ) - a| ≤ ⌊3 * sigma⌋ → |(p.2 : ℤ) - b| ≤ ⌊3 * sigma⌋ →
      image a b = v)
    (h : samples.length < 2 * (samples.filter quiet).length) :
    detect image samples second minPixel minSpot nsig sigma = .error .runtimeError := by
  apply C127_flat image samples second minPixel minSpot nsig sigma v
  refine lt_of_lt_of_le h (Nat.mul_le_mul_left 2 ?_)
  rw [← List.countP_eq_length_filter, ← List.countP_eq_length_filter]
  refine List.countP_mono_left fun p _ hp => ?_
  obtain ⟨hd, hv⟩ := hq p hp
  have := C101_convolve_bounds image sigma v v hs p.1 p.2 (by
    intro k l hk hl
    unfold Deep at hd
    have hk' := abs_le.1 hk
    have hl' := abs_le.1 hl
    obtain ⟨a, b, ha, hb, e⟩ := pad_in image (k := k) (l := l) ⟨⟨by omega, by omega⟩, by omega, by omega⟩
    rw [e, hv a b (by rw [ha]; exact hk) (by rw [hb]; exact hl)]
    exact ⟨le_rfl, le_rfl⟩)
  rw [decide_eq_true_eq]
  linarith [this.1, this.2]

/-! ### A constant added -/

theorem convolve_add {n0 n1 : ℕ} (image : Stamp n0 n1) (sigma c : ℝ) (hs : 0 < sigma) (i : Fin n0) (j : Fin n1) (h : Deep n0 n1 sigma i j) :
    convolve (fun a b => image a b + c) sigma i j = convolve image sigma i j + c := by
  obtain ⟨-, hsum⟩ := kernel_sum sigma hs
  have hc : c = ∑ d0 ∈ window sigma, ∑ d1 ∈ window sigma, kernel sigma d0 d1 * c := by
    simp only [← Finset.sum_mul]
    rw [hsum, one_mul]
  nth_rewrite 2 [hc]
  unfold convolve
  rw [← Finset.sum_add_distrib]
  refine Finset.sum_congr rfl fun d0 h0 => ?_
  rw [← Finset.sum_add_distrib]
  refine Finset.sum_congr rfl fun d1 h1 => ?_
  rw [← mul_add]
  congr 1
  rw [mem_window, abs_le] at h0 h1
  unfold Deep at h
  unfold pad
  rw [dif_pos ⟨⟨by omega, by omega⟩, by omega, by omega⟩, dif_pos ⟨⟨by omega, by omega⟩, by omega, by omega⟩]

theorem grid_eq {n0 n1 : ℕ} (im : Stamp n0 n1) {i j : ℕ} (hi : i < n0) (hj : j < n1) : grid im i j = im ⟨i, hi⟩ ⟨j, hj⟩ := by
  unfold grid
  rw [dif_pos ⟨hi, hj⟩]

/-- **C127** A constant background has no influence: with the pixels drawn, and the peaks of both images, off the borders, an image with a
number added to all pixels gives the same table. -/
theorem C127_background {n0 n1 : ℕ} (image : Stamp n0 n1) (samples : List (Fin n0 × Fin n1)) (second : List Spot → ℕ → Option ℕ)
    (minPixel : Option ℝ) (minSpot nsig sigma c : ℝ) (hs : 0 < sigma) (hne : samples ≠ [])
    (hd : ∀ p ∈ samples, Deep n0 n1 sigma p.1 p.2)
    (hp : ∀ im ∈ [image, fun a b => image a b + c], ∀ m rms, clip (samples.map fun p => convolve im sigma p.1 p.2) = some (m, rms) → ∀ i j,
      isPeak n0 n1 (grid fun a b => convolve im sigma a b - m) (threshold minPixel nsig rms) i j = true →
        Deep n0 n1 sigma (i - 1) j ∧ Deep n0 n1 sigma (i + 1) j ∧ Deep n0 n1 sigma i (j - 1) ∧ Deep n0 n1 sigma i (j + 1)) :
    detect (fun a b => image a b + c) samples second minPixel minSpot nsig sigma = detect image samples second minPixel minSpot nsig sigma := by
  have hsh : (samples.map fun p => convolve (fun a b => image a b + c) sigma p.1 p.2) =
      (samples.map fun p => convolve image sigma p.1 p.2).map (· + c) := by
    rw [List.map_map]
    apply List.map_congr_left
    intro p hpm
    exact convolve_add image sigma c hs p.1 p.2 (hd p hpm)
  have hclip := clip_add (samples.map fun p => convolve image sigma p.1 p.2) c (by simpa using hne)
  rw [← hsh] at hclip
  have hp1 := hp image (by simp)
  have hp2 := hp (fun a b => image a b + c) (by simp)
  unfold detect
  dsimp only
  rw [hclip] at hp2 ⊢
  rcases hcl : clip (samples.map fun p => convolve image sigma p.1 p.2) with _ | ⟨m, rms⟩
  · rw [hcl]
    rfl
  rw [hcl] at hp1 hp2 ⊢
  simp only [Option.map_some] at hp2 ⊢
  have hp1' := hp1 m rms rfl
  have hp2' := hp2 (m + c) rms rfl
  simp only [add_sub_add_right_eq_sub]
  congr 1
  -- the peaks
  have hfl : 0 ≤ ⌊3 * sigma⌋ := Int.floor_nonneg.2 (by positivity)
  have hpk : peakIndices n0 n1 (grid fun a b => convolve (fun a b => image a b + c) sigma a b - (m + c)) (threshold minPixel nsig rms) =
      peakIndices n0 n1 (grid fun a b => convolve image sigma a b - m) (threshold minPixel nsig rms) := by
    unfold peakIndices
    apply List.filter_congr
    intro k _
    generalize k / n1 = i at *
    generalize k % n1 = j at *
    have same : ∀ x y : ℕ, Deep n0 n1 sigma x y → grid (fun a b => convolve (fun a b => image a b + c) sigma a b - (m + c)) x y =
        grid (fun a b => convolve image sigma a b - m) x y := by
      intro x y hxy
      have hxy' := hxy
      unfold Deep at hxy'
      rw [grid_eq _ (by omega) (by omega), grid_eq _ (by omega) (by omega), convolve_add image sigma c hs _ _ hxy]
      ring
    have key : (Deep n0 n1 sigma (i - 1) j ∧ Deep n0 n1 sigma (i + 1) j ∧ Deep n0 n1 sigma i (j - 1) ∧ Deep n0 n1 sigma i (j + 1)) →
        isPeak n0 n1 (grid fun a b => convolve (fun a b => image a b + c) sigma a b - (m + c)) (threshold minPixel nsig rms) i j =
        isPeak n0 n1 (grid fun a b => convolve image sigma a b - m) (threshold minPixel nsig rms) i j := by
      rintro ⟨a1, a2, a3, a4⟩
      have a5 : Deep n0 n1 sigma i j := by unfold Deep at *; omega
      unfold isPeak
      rw [same _ _ a1, same _ _ a2, same _ _ a3, same _ _ a4, same _ _ a5]
    rw [Bool.eq_iff_iff]
    constructor
    · intro h
      rw [← key (hp2' i j h)]
      exact h
    · intro h
      rw [key (hp1' i j h)]
      exact h
  unfold detectspots
  dsimp only
  rw [hpk]

/-- **C127** Nothing is found in a dark image: if all pixels are between two numbers not below zero that differ by at most the minimum
of counts per pixel, and the pixels drawn are off the borders, `detectspots` raises `RuntimeError`. -/
theorem C127_dark {n0 n1 : ℕ} (image : Stamp n0 n1) (samples : List (Fin n0 × Fin n1)) (second : List Spot → ℕ → Option ℕ)
    (minPixel minSpot nsig sigma lo hi : ℝ) (hs : 0 < sigma) (hd : ∀ p ∈ samples, Deep n0 n1 sigma p.1 p.2)
    (h0 : 0 ≤ lo) (hi0 : lo ≤ hi) (him : ∀ a b, lo ≤ image a b ∧ image a b ≤ hi) (hr : hi - lo ≤ minPixel) :
    detect image samples second (some minPixel) minSpot nsig sigma = .error .runtimeError := by
  unfold detect
  dsimp only
  rcases hcl : clip (samples.map fun p => convolve image sigma p.1 p.2) with _ | ⟨m, rms⟩
  · rw [hcl]
  rw [hcl]
  simp only
  have hup : ∀ i j, convolve image sigma i j ≤ hi := by
    intro i j
    refine (C101_convolve_bounds image sigma 0 hi hs i j ?_).2
    intro k l _ _
    unfold pad
    split_ifs
    · exact ⟨h0.trans (him _ _).1, (him _ _).2⟩
    · exact ⟨le_rfl, h0.trans hi0⟩
  have hlo : ∀ i j, Deep n0 n1 sigma (i : Fin n0) (j : Fin n1) → lo ≤ convolve image sigma i j := by
    intro i j hij
    refine (C101_convolve_bounds image sigma lo hi hs i j ?_).1
    intro k l hk hl
    unfold Deep at hij
    have hk' := abs_le.1 hk
    have hl' := abs_le.1 hl
    obtain ⟨a, b, -, -, e⟩ := pad_in image (k := k) (l := l) ⟨⟨by omega, by omega⟩, by omega, by omega⟩
    rw [e]
    exact him a b
  have hm : lo ≤ m := by
    unfold clip at hcl
    dsimp only at hcl
    split_ifs at hcl with hz
    rw [Option.some.injEq, Prod.mk.injEq] at hcl
    rw [← hcl.1]
    refine (mean_bounds (lo := lo) (hi := hi) (List.length_pos_iff.1 (Nat.pos_of_ne_zero hz)) ?_).1
    intro v hv
    obtain ⟨p, hp, rfl⟩ := List.mem_map.1 (List.mem_filter.1 hv).1
    exact ⟨hlo _ _ (hd p hp), hup _ _⟩
  have hpk : peakIndices n0 n1 (grid fun i j => convolve image sigma i j - m) (threshold (some minPixel) nsig rms) = [] := by
    unfold peakIndices
    rw [List.filter_eq_nil_iff]
    intro k _ hk
    generalize k / n1 = i at hk
    generalize k % n1 = j at hk
    unfold isPeak at hk
    simp only [Bool.and_eq_true, decide_eq_true_eq] at hk
    have h1 := hk.2.2
    rw [grid_eq _ (by omega : i < n0) (by omega : j < n1)] at h1
    have h2 := hup ⟨i, by omega⟩ ⟨j, by omega⟩
    have h3 : minPixel ≤ threshold (some minPixel) nsig rms := le_max_left _ _
    linarith
  unfold detectspots
  dsimp only
  rw [hpk]
  rfl

/-! ### A longer exposure -/

/-- A spot of an image multiplied with `k`. -/
noncomputable def times (k : ℝ) (s : Spot) : Spot := ⟨s.x, s.y, s.ex / k, s.ey / k, k * s.counts⟩

theorem dedup_times (second : List Spot → ℕ → Option ℕ) (sigma k : ℝ) (hk : 0 < k) (hsec : ∀ l i, second (l.map (times k)) i = second l i) (n : ℕ)
    (l : List Spot) : dedup second sigma n (l.map (times k)) = (dedup second sigma n l).map (times k) := by
  have hfirst : ∀ l : List Spot, firstBad second sigma (l.map (times k)) = firstBad second sigma l := by
    intro l
    unfold firstBad
    rw [List.length_map]
    congr 1
    funext i
    rw [hsec, List.getElem?_map]
    rcases l[i]? with _ | a
    · rfl
    · rcases second l i with _ | b
      · rfl
      · simp only [Option.map_some, Option.bind_some, List.getElem?_map]
        rcases l[b]? with _ | b
        · rfl
        · rfl
  have hstep : ∀ l : List Spot, dedupStep second sigma (l.map (times k)) = (dedupStep second sigma l).map (List.map (times k)) := by
    intro l
    unfold dedupStep
    rw [hfirst]
    rcases firstBad second sigma l with _ | bad
    · rfl
    simp only [hsec]
    rcases second l bad with _ | idx
    · rfl
    simp only [List.getElem?_map]
    rcases l[bad]? with _ | a
    · rfl
    rcases l[idx]? with _ | b
    · rfl
    simp only [Option.map_some]
    have hlt : (times k a).counts < (times k b).counts ↔ a.counts < b.counts := by
      unfold times
      exact mul_lt_mul_iff_right₀ hk
    simp only [hlt, List.eraseIdx_map]
  induction n generalizing l with
  | zero => rfl
  | succ n ih =>
    unfold dedup
    rw [hstep]
    rcases dedupStep second sigma l with _ | l'
    · rfl
    · exact ih l'

theorem stampFit_times {n0 n1 : ℕ} (im : Stamp n0 n1) (k : ℝ) (hk : 0 < k) (r c : ℕ × ℕ) :
    stampFit (fun a b => k * im a b) r c = (stampFit im r c).map fun f => ⟨f.xc, f.yc, f.xe / k, f.ye / k, k * f.flux⟩ := by
  have e : stamp (fun a b => k * im a b) r c = fun i j => k * stamp im r c i j := by
    funext i j
    unfold stamp grid
    split_ifs
    · rfl
    · simp
  unfold stampFit Verif.Model.Centroid.fitcentroid
  rw [e, C101_scale _ _ _ k hk.ne', abs_of_pos hk]
  rcases fitGaussian (stamp im r c) 1 1 with e | f
  · rfl
  · rfl

theorem measure_times {n0 n1 : ℕ} (im : Stamp n0 n1) (k : ℝ) (hk : 0 < k) (index : ℕ) :
    measurePeak n0 n1 (stampFit fun a b => k * im a b) index = (measurePeak n0 n1 (stampFit im) index).map (times k) := by
  unfold measurePeak Verif.Model.Detectspots.fitcentroid
  dsimp only
  split_ifs
  · rfl
  · rw [stampFit_times im k hk]
    rcases stampFit im _ _ with e | f
    · rfl
    · rfl

theorem mapM_times {f g : ℕ → Except PyErr Spot} (k : ℝ) (h : ∀ i, g i = (f i).map (times k)) (l : List ℕ) :
    l.mapM g = (l.mapM f).map (List.map (times k)) := by
  induction l with
  | nil => rfl
  | cons a l ih =>
    rw [List.mapM_cons, List.mapM_cons, ih, h]
    rcases f a with e | s
    · rfl
    · rcases l.mapM f with e | t
      · rfl
      · rfl

/-- **C127** A longer exposure: an image multiplied with a positive number, with the minimum of counts per pixel and per spot multiplied
too, gives the same positions and errors, and counts multiplied with the number. The tree query is of the positions. -/
theorem C127_exposure {n0 n1 : ℕ} (image : Stamp n0 n1) (samples : List (Fin n0 × Fin n1)) (second : List Spot → ℕ → Option ℕ)
    (minPixel : Option ℝ) (minSpot nsig sigma k : ℝ) (hk : 0 < k) (hne : samples ≠ [])
    (hsec : ∀ l l' : List Spot, (l.map fun s => (s.x, s.y)) = (l'.map fun s => (s.x, s.y)) → second l = second l') :
    detect (fun a b => k * image a b) samples second (minPixel.map (k * ·)) (k * minSpot) nsig sigma =
      (detect image samples second minPixel minSpot nsig sigma).map (List.map fun r => { r with counts := k * r.counts }) := by
  have hcv : ∀ i j, convolve (fun a b => k * image a b) sigma i j = k * convolve image sigma i j := by
    intro i j
    unfold convolve
    simp only [Finset.mul_sum]
    refine Finset.sum_congr rfl fun d0 _ => Finset.sum_congr rfl fun d1 _ => ?_
    unfold pad
    split_ifs <;> ring
  have hcl := clip_mul (samples.map fun p => convolve image sigma p.1 p.2) k hk (by simpa using hne)
  rw [List.map_map] at hcl
  unfold detect
  dsimp only
  simp only [hcv]
  rw [show (samples.map fun p => k * convolve image sigma p.1 p.2) =
    samples.map ((k * ·) ∘ fun p => convolve image sigma p.1 p.2) from rfl, hcl]
  rcases hc0 : clip (samples.map fun p => convolve image sigma p.1 p.2) with _ | ⟨m, rms⟩
  · rw [hc0]
    rfl
  rw [hc0]
  simp only [Option.map_some, ← mul_sub]
  -- the noise
  have hno := clip_mul (samples.map fun p => image p.1 p.2 - m) k hk (by simpa using hne)
  rw [List.map_map] at hno
  rw [show (samples.map fun p => k * (image p.1 p.2 - m)) = samples.map ((k * ·) ∘ fun p => image p.1 p.2 - m) from rfl, hno]
  -- the peaks
  have hg : ∀ i j, grid (fun a b => k * (convolve image sigma a b - m)) i j = k * grid (fun a b => convolve image sigma a b - m) i j := by
    intro i j
    unfold grid
    split_ifs <;> simp
  have ht : threshold (minPixel.map (k * ·)) nsig (k * rms) = k * threshold minPixel nsig rms := by
    unfold threshold
    rcases minPixel with _ | mp
    · simp only [Option.map_none]
      ring
    · simp only [Option.map_some]
      rw [mul_max_of_nonneg _ _ hk.le]
      congr 1
      ring
  have hpk : peakIndices n0 n1 (grid fun a b => k * (convolve image sigma a b - m)) (threshold (minPixel.map (k * ·)) nsig (k * rms)) =
      peakIndices n0 n1 (grid fun a b => convolve image sigma a b - m) (threshold minPixel nsig rms) := by
    unfold peakIndices
    apply List.filter_congr
    intro x _
    unfold isPeak
    simp only [hg, ht, gt_iff_lt, mul_lt_mul_iff_right₀ hk]
  have hsec' : ∀ (l : List Spot) (i : ℕ), second (l.map (times k)) i = second l i := by
    intro l i
    rw [hsec (l.map (times k)) l (by rw [List.map_map]; rfl)]
  have hcf : ∀ l : List Spot, countFilter (k * minSpot) (l.map (times k)) = (countFilter minSpot l).map (times k) := by
    intro l
    unfold countFilter
    have h1 : k * minSpot > 0 ↔ minSpot > 0 := mul_pos_iff_of_pos_left hk
    simp only [h1]
    split_ifs
    · rw [List.filter_map]
      congr 2
      funext s
      simp only [Function.comp_apply, times, ge_iff_le, mul_le_mul_iff_right₀ hk]
    · rfl
  unfold detectspots
  dsimp only
  rw [hpk]
  generalize peakIndices n0 n1 (grid fun a b => convolve image sigma a b - m) (threshold minPixel nsig rms) = peaks
  split_ifs
  · rfl
  · rfl
  · rw [mapM_times (f := measurePeak n0 n1 (stampFit fun i j => image i j - m)) k (fun i => measure_times _ k hk i)]
    rcases peaks.mapM (measurePeak n0 n1 (stampFit fun i j => image i j - m)) with e | l
    · rfl
    · simp only [Except.map, bind, Except.bind, pure, Except.pure, hcf, dedup_times second sigma k hk hsec', List.map_map]
      congr 1
      apply List.map_congr_left
      intro s _
      simp only [Function.comp_apply, row, times, Option.map_map]
      have e : ∀ x : ℝ, ((fun y => y * (x / k)) ∘ Prod.snd ∘ fun p : ℝ × ℝ => (k * p.1, k * p.2)) = (fun y => y * x) ∘ Prod.snd := by
        intro x
        funext p
        simp only [Function.comp_apply]
        field_simp
      rw [e, e]

/-! ### A case -/

theorem clip_case : clip [0, 1, 1000] = some (1 / 2, 1 / 2) := by
  have hm : median [0, 1, 1000] = 1 := Verif.Props.CircleStart.median3 0 1 1000 (by norm_num) (by norm_num) _ (List.Perm.refl _)
  have hd : median ([0, 1, 1000].map fun v => |v - (1 : ℝ)|) = 1 := by
    refine Verif.Props.CircleStart.median3 0 1 999 (by norm_num) (by norm_num) _ ?_
    norm_num
    exact List.Perm.swap _ _ _
  unfold clip
  simp only [hm, hd]
  have hf : ([0, 1, 1000] : List ℝ).filter (fun v => decide (|v - 1| < 4 * (1.4826 * 1))) = [0, 1] := by
    norm_num [List.filter_cons]
  rw [hf]
  have h1 : meanL [0, 1] = 1 / 2 := by
    unfold meanL
    norm_num
  have h2 : std [0, 1] = 1 / 2 := by
    unfold std
    rw [h1]
    unfold meanL
    norm_num
    rw [show (4 : ℝ) = 2 ^ 2 by norm_num, Real.sqrt_sq (by norm_num)]
    norm_num
  rw [h1, h2]
  rfl

/-- Two of three values between zero and one. -/
example : ∃ (vals : List ℝ) (lo hi m rms : ℝ), vals.length < 2 * (vals.filter fun v => decide (lo ≤ v ∧ v ≤ hi)).length ∧
    clip vals = some (m, rms) ∧ ∃ v ∈ vals, hi + 6 * (hi - lo) < v := by
  refine ⟨[0, 1, 1000], 0, 1, _, _, ?_, clip_case, 1000, by simp, by norm_num⟩
  norm_num [List.filter_cons]

/-- With a narrow kernel the image stays as it is. -/
theorem convolve_narrow {n0 n1 : ℕ} (image : Stamp n0 n1) (i : Fin n0) (j : Fin n1) : convolve image 0.1 i j = image i j := by
  have hw : window 0.1 = {0} := by
    unfold window halfWidth
    norm_num
  unfold convolve kernel
  rw [hw]
  simp only [Finset.sum_singleton, sub_zero]
  have : gauss 0.1 0 0 ≠ 0 := (Real.exp_pos _).ne'
  rw [div_self this, one_mul]
  unfold pad
  rw [dif_pos ⟨⟨by omega, by omega⟩, by omega, by omega⟩]
  simp

/-- A bright pixel on a background with noise meets the hypotheses of `C127_background`, and there is a peak. -/
example : ∃ (image : Stamp 3 3) (samples : List (Fin 3 × Fin 3)) (m rms : ℝ), samples ≠ [] ∧ (∀ p ∈ samples, Deep 3 3 0.1 p.1 p.2) ∧
    clip (samples.map fun p => convolve image 0.1 p.1 p.2) = some (m, rms) ∧
    isPeak 3 3 (grid fun a b => convolve image 0.1 a b - m) (threshold (some 500) 7 rms) 1 1 = true ∧
    ∀ c, ∀ im ∈ [image, fun a b => image a b + c], ∀ m rms, clip (samples.map fun p => convolve im 0.1 p.1 p.2) = some (m, rms) → ∀ i j,
      isPeak 3 3 (grid fun a b => convolve im 0.1 a b - m) (threshold (some 500) 7 rms) i j = true →
        Deep 3 3 0.1 (i - 1) j ∧ Deep 3 3 0.1 (i + 1) j ∧ Deep 3 3 0.1 i (j - 1) ∧ Deep 3 3 0.1 i (j + 1) := by
  have hfl : ⌊(3 : ℝ) * 0.1⌋ = 0 := by norm_num
  refine ⟨fun a b => if a = 1 ∧ b = 1 then 1000 else if a = 0 ∧ b = 0 then 0 else 1, [(0, 0), (0, 1), (1, 1)], 1 / 2, 1 / 2, by simp, ?_, ?_, ?_, ?_⟩
  · intro p _
    unfold Deep
    rw [hfl]
    omega
  · simp only [convolve_narrow, List.map_cons, List.map_nil]
    simp only [Fin.isValue, zero_ne_one, one_ne_zero, and_self, and_true, if_true, if_false, true_and]
    exact clip_case
  · unfold isPeak threshold grid
    simp only [convolve_narrow]
    norm_num [Fin.ext_iff]
  · intro c im _ m rms _ i j h
    unfold isPeak at h
    simp only [Bool.and_eq_true, decide_eq_true_eq] at h
    unfold Deep
    rw [hfl]
    omega

end Verif.Props.DetectImage
