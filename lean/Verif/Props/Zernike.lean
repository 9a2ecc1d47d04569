import Verif.Lemmas.ZernikeFields
import Mathlib.MeasureTheory.Integral.Prod
import Mathlib.Analysis.SpecialFunctions.PolarCoord
import Mathlib.MeasureTheory.Integral.IntervalIntegral.Periodic

/-!
# C122: the functions of the distortion are orthonormal on the disc
-/

namespace Verif.Props.Zernike
open Verif.Py Verif.Model.ZhaoBurge Verif.Lemmas.ZhaoBurge MeasureTheory

/-- The unit disc. -/
def Disc : Set (ℝ × ℝ) := {p | p.1 ^ 2 + p.2 ^ 2 < 1}

/-- The integral over the disc in polar coordinates is that with respect to area. -/
theorem disc_area (f : ℝ → ℝ → ℝ) (hf : Continuous fun p : ℝ × ℝ => f p.1 p.2) : ∫ p in Disc, f p.1 p.2 = Lemmas.Zernike.disc f := by
  have hD : MeasurableSet Disc := by
    have : IsOpen Disc := isOpen_lt (by fun_prop) continuous_const
    exact this.measurableSet
  rw [← integral_indicator hD, ← integral_comp_polarCoord_symm]
  let g : ℝ × ℝ → ℝ := fun p => p.1 * f (p.1 * Real.cos p.2) (p.1 * Real.sin p.2)
  have hg : Continuous g := continuous_fst.mul (hf.comp (f := fun p : ℝ × ℝ => ((p.1 * Real.cos p.2, p.1 * Real.sin p.2) : ℝ × ℝ)) (by fun_prop))
  have h1 : ∫ p in polarCoord.target, p.1 • Disc.indicator (fun p => f p.1 p.2) (polarCoord.symm p) = ∫ p in Set.Ioo (0:ℝ) 1 ×ˢ Set.Ioo (-Real.pi) Real.pi, g p := by
    classical
    rw [← integral_indicator (measurableSet_Ioo.prod measurableSet_Ioo), ← integral_indicator polarCoord.open_target.measurableSet]
    congr 1
    funext p
    rw [Set.indicator_apply, Set.indicator_apply]
    rw [polarCoord_target]
    have hs : (polarCoord.symm p) = (p.1 * Real.cos p.2, p.1 * Real.sin p.2) := rfl
    rw [hs, Set.indicator_apply]
    have hsq : (p.1 * Real.cos p.2) ^ 2 + (p.1 * Real.sin p.2) ^ 2 = p.1 ^ 2 := by
      linear_combination p.1 ^ 2 * Real.sin_sq_add_cos_sq p.2
    by_cases ha : p ∈ Set.Ioi (0:ℝ) ×ˢ Set.Ioo (-Real.pi) Real.pi
    · have ha' := ha
      rw [Set.mem_prod, Set.mem_Ioi] at ha'
      rw [if_pos ha]
      by_cases hb : p.1 < 1
      · rw [if_pos, if_pos]
        · rfl
        · exact ⟨⟨ha'.1, hb⟩, ha'.2⟩
        · show (p.1 * Real.cos p.2) ^ 2 + (p.1 * Real.sin p.2) ^ 2 < 1
          rw [hsq]
          nlinarith [ha'.1]
      · rw [if_neg, if_neg, smul_zero]
        · exact fun h => hb h.1.2
        · show ¬ (p.1 * Real.cos p.2) ^ 2 + (p.1 * Real.sin p.2) ^ 2 < 1
          rw [hsq]
          nlinarith [ha'.1]
    · rw [if_neg ha, if_neg]
      exact fun h => ha ⟨h.1.1, h.2⟩
  rw [h1]
  have hint : IntegrableOn g (Set.Ioo (0:ℝ) 1 ×ˢ Set.Ioo (-Real.pi) Real.pi) (volume.prod volume) := by
    have hc : IsCompact (Set.Icc (0:ℝ) 1 ×ˢ Set.Icc (-Real.pi) Real.pi) := isCompact_Icc.prod isCompact_Icc
    exact (hg.continuousOn.integrableOn_compact hc).mono_set (Set.prod_mono Set.Ioo_subset_Icc_self Set.Ioo_subset_Icc_self)
  have h2 := setIntegral_prod g hint
  rw [show (volume : Measure (ℝ × ℝ)) = volume.prod volume from rfl, h2]
  unfold Lemmas.Zernike.disc
  rw [intervalIntegral.integral_of_le zero_le_one, ← integral_Ioc_eq_integral_Ioo]
  congr 1
  funext r
  rw [← integral_Ioc_eq_integral_Ioo, ← intervalIntegral.integral_of_le (by linarith [Real.pi_pos])]
  show ∫ t in (-Real.pi)..Real.pi, r * f (r * Real.cos t) (r * Real.sin t) = _
  rw [intervalIntegral.integral_const_mul, mul_comm]
  congr 1
  have hper : Function.Periodic (fun t : ℝ => f (r * Real.cos t) (r * Real.sin t)) (2 * Real.pi) := by
    intro t
    dsimp only
    rw [Real.cos_add_two_pi, Real.sin_add_two_pi]
  have := hper.intervalIntegral_add_eq (-Real.pi) 0
  rw [show -Real.pi + 2 * Real.pi = Real.pi by ring, zero_add] at this
  exact this

/-- **C122** The radial functions have the value 1 at the edge of the disc, so the functions have their largest values 1 there: on the edge they are their angular part. -/
theorem C122_edge (n : ℕ) (m : ℤ) (h : m.natAbs ≤ n) (hp : (n - m.natAbs) % 2 = 0) (t : ℝ) :
    getZernRadial n m.natAbs 1 = 1 ∧ getZernFuncXY ((n : ℤ), m) (Real.cos t) (Real.sin t) = if 0 ≤ m then Real.cos (m * t) else Real.sin (-m * t) := by
  have h1 : getZernRadial n m.natAbs 1 = 1 := by
    obtain ⟨k, hk⟩ : ∃ k, n = m.natAbs + 2 * k := ⟨(n - m.natAbs) / 2, by omega⟩
    rw [hk]
    exact Lemmas.Zernike.radial_one m.natAbs k
  refine ⟨h1, ?_⟩
  have h2 := Lemmas.Zernike.func_polar n m h hp 1 t
  rw [one_mul, one_mul, h1, one_mul] at h2
  rw [h2]
  split_ifs with hm
  · exact Lemmas.Zernike.angular_nonneg m hm t
  · rw [Lemmas.Zernike.angular_neg m (by omega), neg_mul, Real.sin_neg]

/-- **C122** Radial functions of the same angular index are orthogonal on the unit interval with weight r, of all orders. -/
theorem C122_radial (n n' m : ℕ) (h : m ≤ n) (hp : (n - m) % 2 = 0) (h' : m ≤ n') (hp' : (n' - m) % 2 = 0) :
    ∫ r in (0:ℝ)..1, getZernRadial n m r * getZernRadial n' m r * r = if n = n' then 1 / (2 * (n + 1 : ℝ)) else 0 := by
  obtain ⟨k, rfl⟩ : ∃ k, n = m + 2 * k := ⟨(n - m) / 2, by omega⟩
  obtain ⟨k', rfl⟩ : ∃ k, n' = m + 2 * k := ⟨(n' - m) / 2, by omega⟩
  rw [Lemmas.Zernike.radial_integral]
  by_cases hk : k = k'
  · subst hk
    rw [if_pos rfl, if_pos rfl]
    push_cast
    rfl
  · rw [if_neg hk, if_neg (by omega)]

/-- **C122** Functions of different indices, of all orders, are orthogonal with respect to area on the unit disc. -/
theorem C122_orthogonal (n n' : ℕ) (m m' : ℤ) (h : m.natAbs ≤ n) (hp : (n - m.natAbs) % 2 = 0) (h' : m'.natAbs ≤ n') (hp' : (n' - m'.natAbs) % 2 = 0) :
    ∫ p in Disc, getZernFuncXY ((n : ℤ), m) p.1 p.2 * getZernFuncXY ((n' : ℤ), m') p.1 p.2 =
      if n = n' ∧ m = m' then Real.pi / ((n + 1) * (if m = 0 then 1 else 2)) else 0 := by
  rw [disc_area (fun x y => getZernFuncXY ((n : ℤ), m) x y * getZernFuncXY ((n' : ℤ), m') x y)
    ((Lemmas.Zernike.func_continuous n m h hp).mul (Lemmas.Zernike.func_continuous n' m' h' hp'))]
  exact Lemmas.Zernike.func_disc n n' m m' h hp h' hp'

/-- **C122** With the norms of the table, the functions of Noll numbers 1 to 37 are orthonormal: their mean square on the disc is 1 and the mean product of different ones 0. -/
theorem C122_noll (i j : ℕ) (hi : 1 ≤ i) (hi' : i ≤ 37) (hj : 1 ≤ j) (hj' : j ≤ 37) :
    ∫ p in Disc, getZ i p.1 p.2 * getZ j p.1 p.2 = if i = j then Real.pi else 0 := by
  rw [disc_area (fun x y => getZ i x y * getZ j x y) ((Lemmas.Zernike.getZ_continuous i hi').mul (Lemmas.Zernike.getZ_continuous j hj'))]
  exact Lemmas.Zernike.getZ_disc i j hi hi' hj hj'

/-- **C122** The mean square of a distortion on the disc is the sum of squares of its coefficients, for every list of different fields. -/
theorem C122_power (ids : List ℕ) (cs : List ℝ) (h : ∀ i ∈ ids, i < 33) (hn : ids.Nodup) (hl : ids.length = cs.length) :
    ∃ dx dy : ℝ → ℝ → ℝ, (∀ x y, getZhaoBurgeXY ids cs x y = .ok (dx x y, dy x y)) ∧
      (∫ p in Disc, (dx p.1 p.2 ^ 2 + dy p.1 p.2 ^ 2)) = Real.pi * (cs.map fun c => c ^ 2).sum := by
  have hF : ∀ x y : ℝ, getZhaoBurgeXY ids cs x y =
      .ok (((ids.zip cs).map fun e : ℕ × ℝ => e.2 * Lemmas.Zernike.comp (Lemmas.Zernike.fld e.1).1 x y).sum,
        ((ids.zip cs).map fun e : ℕ × ℝ => e.2 * Lemmas.Zernike.comp (Lemmas.Zernike.fld e.1).2 x y).sum) := fun x y =>
    C25_sum ids cs x y (fun i => (Lemmas.Zernike.comp (Lemmas.Zernike.fld i).1 x y, Lemmas.Zernike.comp (Lemmas.Zernike.fld i).2 x y))
      (fun i hi => ⟨_, Lemmas.Zernike.term_comp i (h i hi) x y⟩)
  refine ⟨_, _, hF, ?_⟩
  set L := ids.zip cs with hL
  have hkeys : L.map Prod.fst = ids := List.map_fst_zip (by omega)
  have hvals : L.map Prod.snd = cs := List.map_snd_zip (by omega)
  have hlt : ∀ e ∈ L, e.1 < 33 := fun e he => h e.1 (hkeys ▸ List.mem_map.2 ⟨e, he, rfl⟩)
  have s1 := Lemmas.Zernike.amount_sum (fun i => (Lemmas.Zernike.fld i).1) L
  have s2 := Lemmas.Zernike.amount_sum (fun i => (Lemmas.Zernike.fld i).2) L
  simp_rw [s1, s2]
  have cont : ∀ c : ℕ → ℝ, Continuous fun p : ℝ × ℝ => (∑ k ∈ Finset.range 22, c k * getZ k p.1 p.2) := fun c =>
    continuous_finsetSum _ fun k hk => continuous_const.mul (Lemmas.Zernike.getZ_continuous k (by have := Finset.mem_range.1 hk; omega))
  have z1 := Lemmas.Zernike.amount_zero (fun i => (Lemmas.Zernike.fld i).1) L fun e he => (Lemmas.Zernike.fld_good ⟨e.1, hlt e he⟩).2.2.1
  have z2 := Lemmas.Zernike.amount_zero (fun i => (Lemmas.Zernike.fld i).2) L fun e he => (Lemmas.Zernike.fld_good ⟨e.1, hlt e he⟩).2.2.2
  simp_rw [sq (∑ k ∈ Finset.range 22, _)]
  rw [disc_area (fun x y => (∑ k ∈ Finset.range 22, Lemmas.Zernike.amount (fun i => (Lemmas.Zernike.fld i).1) L k * getZ k x y) *
        (∑ k ∈ Finset.range 22, Lemmas.Zernike.amount (fun i => (Lemmas.Zernike.fld i).1) L k * getZ k x y) +
      (∑ k ∈ Finset.range 22, Lemmas.Zernike.amount (fun i => (Lemmas.Zernike.fld i).2) L k * getZ k x y) *
        (∑ k ∈ Finset.range 22, Lemmas.Zernike.amount (fun i => (Lemmas.Zernike.fld i).2) L k * getZ k x y))
      (((cont _).mul (cont _)).add ((cont _).mul (cont _))),
    Lemmas.Zernike.disc_add _ _ ((cont _).mul (cont _)) ((cont _).mul (cont _)), Lemmas.Zernike.comb_disc _ _ z1, Lemmas.Zernike.comb_disc _ _ z2, ← mul_add,
    ← Finset.sum_add_distrib, Lemmas.Zernike.amount_gram, Lemmas.Zernike.gram_self L (hkeys ▸ hn) hlt]
  congr 2
  rw [← hvals, List.map_map]
  rfl

/-- **C122** The 33 fields are orthonormal: the mean scalar product of two different fields on the disc is 0, and the mean square of each is 1. -/
theorem C122_fields (i j : ℕ) (hi : i < 33) (hj : j < 33) : ∃ (P Q P' Q' : ℝ → ℝ → ℝ) (k k' : Kind), (∀ x y, getZhaoBurgeTerm i x y = .ok (P x y, Q x y, k)) ∧
    (∀ x y, getZhaoBurgeTerm j x y = .ok (P' x y, Q' x y, k')) ∧
    (∫ p in Disc, (P p.1 p.2 * P' p.1 p.2 + Q p.1 p.2 * Q' p.1 p.2)) = if i = j then Real.pi else 0 := by
  refine ⟨_, _, _, _, _, _, Lemmas.Zernike.term_comp i hi, Lemmas.Zernike.term_comp j hj, ?_⟩
  have c := Lemmas.Zernike.comp_continuous
  have g := fun i (hi : i < 33) => (Lemmas.Zernike.fld_good ⟨i, hi⟩).2.2
  have zero : Lemmas.Zernike.val (0, 0) = 0 := by simp [Lemmas.Zernike.val]
  rw [disc_area (fun x y => Lemmas.Zernike.comp (Lemmas.Zernike.fld i).1 x y * Lemmas.Zernike.comp (Lemmas.Zernike.fld j).1 x y +
      Lemmas.Zernike.comp (Lemmas.Zernike.fld i).2 x y * Lemmas.Zernike.comp (Lemmas.Zernike.fld j).2 x y) (((c _).mul (c _)).add ((c _).mul (c _))),
    Lemmas.Zernike.disc_add _ _ ((c _).mul (c _)) ((c _).mul (c _))]
  unfold Lemmas.Zernike.comp
  rw [Lemmas.Zernike.comb_disc _ _ (by rw [(g i hi).1, zero]), Lemmas.Zernike.comb_disc _ _ (by rw [(g i hi).2, zero]), ← mul_add, ← Finset.sum_add_distrib]
  have := Lemmas.Zernike.G_eq i j hi hj
  unfold Lemmas.Zernike.G at this
  rw [this]
  split_ifs <;> ring

theorem sum_sq_zero (l : List ℝ) (h : (l.map fun c => c ^ 2).sum = 0) : ∀ c ∈ l, c = 0 := by
  induction l with
  | nil => intro c hc; cases hc
  | cons a l ih =>
    have hn : 0 ≤ (l.map fun c => c ^ 2).sum := List.sum_nonneg fun x hx => by
      obtain ⟨c, _, rfl⟩ := List.mem_map.1 hx
      positivity
    rw [List.map_cons, List.sum_cons] at h
    have ha : a ^ 2 = 0 := le_antisymm (by linarith) (sq_nonneg a)
    intro c hc
    rcases List.mem_cons.1 hc with rfl | hc
    · exact pow_eq_zero_iff two_ne_zero |>.1 ha
    · exact ih (by linarith) c hc

theorem zipWith_zero (cs cs' : List ℝ) (hl : cs.length = cs'.length) (h : ∀ c ∈ List.zipWith (fun c c' => 1 * c + -1 * c') cs cs', c = 0) : cs = cs' := by
  induction cs generalizing cs' with
  | nil => cases cs' with
    | nil => rfl
    | cons => cases hl
  | cons c cs ih => cases cs' with
    | nil => cases hl
    | cons c' cs' =>
      rw [List.zipWith_cons_cons] at h
      have h1 := h _ List.mem_cons_self
      rw [ih cs' (Nat.succ.inj hl) fun d hd => h d (List.mem_cons_of_mem _ hd)]
      congr 1
      linarith

/-- **C122** A distortion with different fields determines its coefficients: two lists of coefficients that give the same distortion at all points of the disc are equal. -/
theorem C122_unique (ids : List ℕ) (cs cs' : List ℝ) (h : ∀ i ∈ ids, i < 33) (hn : ids.Nodup) (hl : ids.length = cs.length) (hl' : ids.length = cs'.length)
    (he : ∀ x y : ℝ, x ^ 2 + y ^ 2 < 1 → getZhaoBurgeXY ids cs x y = getZhaoBurgeXY ids cs' x y) : cs = cs' := by
  obtain ⟨dx, dy, hd, hp⟩ := C122_power ids (List.zipWith (fun c c' => 1 * c + -1 * c') cs cs') h hn (by rw [List.length_zipWith]; omega)
  have hz : ∀ p ∈ Disc, dx p.1 p.2 ^ 2 + dy p.1 p.2 ^ 2 = 0 := by
    intro p hpd
    obtain ⟨d, d', e1, e2, e3⟩ := C25_linear ids h cs cs' (by omega) 1 (-1) p.1 p.2
    rw [hd] at e3
    rw [he p.1 p.2 hpd, e2] at e1
    have hdd := Except.ok.inj e1
    have e4 := Except.ok.inj e3
    rw [Prod.mk.injEq, hdd] at e4
    rw [e4.1, e4.2]
    ring
  have hD : MeasurableSet Disc := (isOpen_lt (by fun_prop) continuous_const : IsOpen Disc).measurableSet
  rw [setIntegral_congr_fun hD hz, integral_zero] at hp
  have hs := (mul_eq_zero.1 hp.symm).resolve_left Real.pi_pos.ne'
  exact zipWith_zero cs cs' (by omega) (sum_sq_zero _ hs)

/-! ## Examples -/

example : ((-3 : ℤ)).natAbs ≤ 5 ∧ (5 - ((-3 : ℤ)).natAbs) % 2 = 0 := by decide

example : ∃ ids : List ℕ, (∀ i ∈ ids, i < 33) ∧ ids.Nodup ∧ ids.length = ([0.5, -1, 2] : List ℝ).length := ⟨[2, 5, 29], by decide, by decide, rfl⟩

end Verif.Props.Zernike
