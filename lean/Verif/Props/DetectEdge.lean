import Verif.Props.DetectMeasured

/-!
# Property C127: how the detection of spots in an image fails (`py/desimeter/detectspots.py` lines 124-259)
-/

namespace Verif.Props.DetectEdge
open Verif.Py Verif.Model.Detectspots Verif.Model.DetectImage Verif.Props Verif.Props.DetectImage Verif.Props.DetectMeasured
open Verif.Model.Centroid hiding span

theorem mapM_error {α β : Type} (f : α → Except PyErr β) (e : PyErr) (hf : ∀ a e', f a = .error e' → e' = e) :
    ∀ l : List α, ((∃ a ∈ l, f a = .error e) → l.mapM f = .error e) ∧ ∀ e', l.mapM f = .error e' → e' = e := by
  intro l
  induction l with
  | nil =>
    refine ⟨?_, ?_⟩
    · rintro ⟨a, ha, -⟩
      exact absurd ha List.not_mem_nil
    · intro e' h
      rw [List.mapM_nil] at h
      exact nomatch h
  | cons a l ih =>
    rw [List.mapM_cons]
    rcases ha : f a with e1 | s
    · have := hf a e1 ha
      subst this
      exact ⟨fun _ => rfl, fun e' h => by cases h; rfl⟩
    · rcases hl : l.mapM f with e2 | t
      · have := ih.2 e2 hl
        subst this
        exact ⟨fun _ => rfl, fun e' h => by cases h; rfl⟩
      · refine ⟨?_, fun e' h => nomatch h⟩
        rintro ⟨b, hb, he⟩
        rcases List.mem_cons.1 hb with rfl | hb
        · rw [ha] at he
          exact nomatch he
        · have := ih.1 ⟨b, hb, he⟩
          rw [hl] at this
          exact nomatch this

theorem measure_error {n0 n1 : ℕ} (im : Stamp n0 n1) (index : ℕ) (e : PyErr) (h : measurePeak n0 n1 (stampFit im) index = .error e) :
    e = .linAlgError := by
  unfold measurePeak Verif.Model.Detectspots.fitcentroid at h
  dsimp only at h
  split_ifs at h
  · cases h
    rfl
  · unfold stampFit at h
    rcases hf : Verif.Model.Centroid.fitcentroid (stamp im (span n0 (index / n1)) (span n1 (index % n1))) 1 with e' | f
    · rw [hf] at h
      have := ((C101_fails _ 1 1 one_pos).1 e' hf).1
      subst this
      cases h
      rfl
    · rw [hf] at h
      exact nomatch h

/-- **C127** The two ways to fail. `detectspots` on an image raises nothing but `RuntimeError` and `LinAlgError`; `RuntimeError` exactly if the
pedestal is NaN, no pixel is a peak, or more than 10000 are. -/
theorem C127_failures {n0 n1 : ℕ} (image : Stamp n0 n1) (samples : List (Fin n0 × Fin n1)) (second : List Spot → ℕ → Option ℕ)
    (minPixel : Option ℝ) (minSpot nsig sigma : ℝ) :
    (∀ e, detect image samples second minPixel minSpot nsig sigma = .error e → e = .runtimeError ∨ e = .linAlgError) ∧
    (detect image samples second minPixel minSpot nsig sigma = .error .runtimeError ↔
      clip (samples.map fun p => convolve image sigma p.1 p.2) = none ∨
      ∃ m rms, clip (samples.map fun p => convolve image sigma p.1 p.2) = some (m, rms) ∧
        ((∀ i j, isPeak n0 n1 (grid fun a b => convolve image sigma a b - m) (threshold minPixel nsig rms) i j = false) ∨
          10000 < (peakIndices n0 n1 (grid fun a b => convolve image sigma a b - m) (threshold minPixel nsig rms)).length)) := by
  unfold detect
  dsimp only
  rcases hc : clip (samples.map fun p => convolve image sigma p.1 p.2) with _ | ⟨m, rms⟩
  · rw [hc]
    dsimp only
    refine ⟨fun e h => ?_, fun _ => .inl rfl, fun _ => rfl⟩
    cases h
    exact .inl rfl
  · rw [hc]
    dsimp only
    have hnil : (peakIndices n0 n1 (grid fun a b => convolve image sigma a b - m) (threshold minPixel nsig rms)).length = 0 ↔
        ∀ i j, isPeak n0 n1 (grid fun a b => convolve image sigma a b - m) (threshold minPixel nsig rms) i j = false := by
      rw [List.length_eq_zero_iff, List.eq_nil_iff_forall_not_mem]
      constructor
      · intro h i j
        by_contra hp
        rw [Bool.not_eq_false] at hp
        have hp' := hp
        unfold isPeak at hp'
        simp only [Bool.and_eq_true, decide_eq_true_eq] at hp'
        have hj : j < n1 := by omega
        have hn : 0 < n1 := by omega
        refine h (i * n1 + j) ?_
        unfold peakIndices
        rw [List.mem_filter, List.mem_range]
        rw [Nat.add_comm, Nat.add_mul_div_right _ _ hn, Nat.div_eq_of_lt hj, zero_add, Nat.add_mul_mod_self_right, Nat.mod_eq_of_lt hj]
        refine ⟨?_, hp⟩
        calc j + i * n1 < n1 + i * n1 := by omega
          _ = (i + 1) * n1 := by ring
          _ ≤ n0 * n1 := Nat.mul_le_mul_right _ (by omega)
      · intro h x hx
        unfold peakIndices at hx
        rw [List.mem_filter, h] at hx
        exact nomatch hx.2
    unfold detectspots
    dsimp only
    split_ifs with h0 h1
    · refine ⟨fun e h => ?_, fun _ => .inr ⟨m, rms, rfl, .inl (hnil.1 h0)⟩, fun _ => rfl⟩
      cases h
      exact .inl rfl
    · refine ⟨fun e h => ?_, fun _ => .inr ⟨m, rms, rfl, .inr h1⟩, fun _ => rfl⟩
      cases h
      exact .inl rfl
    · rcases hm : (peakIndices n0 n1 (grid fun i j => convolve image sigma i j - m) (threshold minPixel nsig rms)).mapM
        (measurePeak n0 n1 (stampFit fun i j => image i j - m)) with e | l
      · have he : e = .linAlgError := (mapM_error _ _ (fun a e' h => measure_error _ _ _ h) _).2 e hm
        subst he
        refine ⟨fun e h => ?_, fun h => (nomatch h), ?_⟩
        · cases h
          exact .inr rfl
        · rintro (h | ⟨m', rms', h, h'⟩)
          · exact nomatch h
          · cases h
            rcases h' with h' | h'
            · exact absurd (hnil.2 h') h0
            · exact absurd h' h1
      · refine ⟨fun e h => (nomatch h), fun h => (nomatch h), ?_⟩
        rintro (h | ⟨m', rms', h, h'⟩)
        · exact nomatch h
        · cases h
          rcases h' with h' | h'
          · exact absurd (hnil.2 h') h0
          · exact absurd h' h1

/-- **C127** Finding: in an image of at least seven by seven pixels a single peak above the threshold in the rows or columns 1 and 2 makes the
whole detection fail with `LinAlgError`, whatever other spots there are (at most 10000 peaks). -/
theorem C127_edge {n0 n1 : ℕ} (image : Stamp n0 n1) (samples : List (Fin n0 × Fin n1)) (second : List Spot → ℕ → Option ℕ)
    (minPixel : Option ℝ) (minSpot nsig sigma m rms : ℝ) (hn0 : 7 ≤ n0) (hn1 : 7 ≤ n1)
    (hc : clip (samples.map fun p => convolve image sigma p.1 p.2) = some (m, rms)) (i j : ℕ)
    (hpeak : isPeak n0 n1 (grid fun a b => convolve image sigma a b - m) (threshold minPixel nsig rms) i j = true) (hij : i < 3 ∨ j < 3)
    (hmany : (peakIndices n0 n1 (grid fun a b => convolve image sigma a b - m) (threshold minPixel nsig rms)).length ≤ 10000) :
    detect image samples second minPixel minSpot nsig sigma = .error .linAlgError := by
  have hb := hpeak
  unfold isPeak at hb
  simp only [Bool.and_eq_true, decide_eq_true_eq] at hb
  have hj : j < n1 := by omega
  have hn : 0 < n1 := by omega
  have hmem : i * n1 + j ∈ peakIndices n0 n1 (grid fun a b => convolve image sigma a b - m) (threshold minPixel nsig rms) := by
    unfold peakIndices
    rw [List.mem_filter, List.mem_range]
    rw [Nat.add_comm, Nat.add_mul_div_right _ _ hn, Nat.div_eq_of_lt hj, zero_add, Nat.add_mul_mod_self_right, Nat.mod_eq_of_lt hj]
    refine ⟨?_, hpeak⟩
    calc j + i * n1 < n1 + i * n1 := by omega
      _ = (i + 1) * n1 := by ring
      _ ≤ n0 * n1 := Nat.mul_le_mul_right _ (by omega)
  have hfail := (C58_position n0 n1 i j hj (stampFit fun a b => image a b - m)).2 (by omega)
  have hm := (mapM_error (measurePeak n0 n1 (stampFit fun a b => image a b - m)) _ (fun a e' h => measure_error (fun a b => image a b - m) _ _ h)
    (peakIndices n0 n1 (grid fun a b => convolve image sigma a b - m) (threshold minPixel nsig rms))).1 ⟨_, hmem, hfail⟩
  unfold detect
  dsimp only
  rw [hc]
  dsimp only
  unfold detectspots
  dsimp only
  rw [if_neg (by
    intro h
    rw [List.length_eq_zero_iff] at h
    rw [h] at hmem
    exact absurd hmem List.not_mem_nil), if_neg (by omega), hm]
  rfl

/-- An image of seven by seven pixels with a bright pixel in row 2 (`C127_edge`). -/
example : ∃ (image : Stamp 7 7), detect image [(0, 0), (0, 1), (0, 2)] (fun _ _ => none) (some 500) 0 0 0.1 = .error .linAlgError := by
  let image : Stamp 7 7 := fun a b => if a.1 = 0 ∧ b.1 = 0 then 0 else if a.1 = 0 ∧ b.1 = 1 then 1 else if a.1 = 0 ∧ b.1 = 2 then 1000 else
    if a.1 = 2 ∧ b.1 = 3 then 2000 else 1 / 2
  refine ⟨image, C127_edge image _ _ _ _ _ _ (1 / 2) (1 / 2) (by omega) (by omega) ?_ 2 3 ?_ (.inl (by omega)) ?_⟩
  · simp only [convolve_narrow, List.map_cons, List.map_nil]
    exact clip_case
  · have hg : ∀ a b : ℕ, 1 ≤ a → a < 7 → b < 7 →
        grid (fun a b => convolve image 0.1 a b - 1 / 2) a b = if a = 2 ∧ b = 3 then 2000 - 1 / 2 else 0 := by
      intro a b h1 h2 h3
      rw [grid_eq _ h2 h3, convolve_narrow]
      show (if a = 0 ∧ b = 0 then (0 : ℝ) else if a = 0 ∧ b = 1 then 1 else if a = 0 ∧ b = 2 then 1000 else
        if a = 2 ∧ b = 3 then 2000 else 1 / 2) - 1 / 2 = _
      rw [if_neg (by omega), if_neg (by omega), if_neg (by omega)]
      split_ifs
      · rfl
      · norm_num
    unfold isPeak threshold
    rw [hg 2 3 (by omega) (by omega) (by omega), hg (2 - 1) 3 (by omega) (by omega) (by omega), hg (2 + 1) 3 (by omega) (by omega) (by omega),
      hg 2 (3 - 1) (by omega) (by omega) (by omega), hg 2 (3 + 1) (by omega) (by omega) (by omega)]
    norm_num
  · refine (List.length_filter_le _ _).trans ?_
    rw [List.length_range]
    omega

end Verif.Props.DetectEdge
