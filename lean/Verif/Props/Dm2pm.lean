import Verif.Model.Dm2pm
import Verif.Props.ZhaoBurge
import Verif.Props.Json
import Verif.Spec.Fit

/-!
# C66: desimeter to PlateMaker coordinates
-/

namespace Verif.Props.Dm2pm
open Verif.Py Verif.Model.Dm2pm Verif.Model.ZhaoBurge Verif.Model.Json Verif.Lemmas.ZhaoBurge Verif.Spec

/-! ### The default fields in closed form -/

theorem rh_sqrt (a b : ℝ) (hb : 0.5 * a = b) : rh * Real.sqrt a = Real.sqrt b := by
  unfold rh
  rw [← Real.sqrt_mul (by norm_num), hb]

theorem half_sqrt6 : 0.5 * Real.sqrt 6 = Real.sqrt 1.5 := by
  have : (6:ℝ) = 2 ^ 2 * 1.5 := by norm_num
  rw [this, Real.sqrt_mul (by norm_num), Real.sqrt_sq (by norm_num)]
  ring

theorem rh4 : rh * Real.sqrt 4 = Real.sqrt 2 := rh_sqrt 4 2 (by norm_num)
theorem rh3 : rh * Real.sqrt 3 = Real.sqrt 1.5 := rh_sqrt 3 1.5 (by norm_num)
theorem rh12 : rh * Real.sqrt 12 = Real.sqrt 6 := rh_sqrt 12 6 (by norm_num)
theorem rh8 : rh * Real.sqrt 8 = 2 := by
  rw [rh_sqrt 8 (2 ^ 2) (by norm_num), Real.sqrt_sq (by norm_num)]

/-- Explicit fields. -/
noncomputable def fld (x y : ℝ) : ℕ → ℝ × ℝ
  | 0 => (1, 0)
  | 1 => (0, 1)
  | 2 => (Real.sqrt 2 * x, Real.sqrt 2 * y)
  | 3 => (Real.sqrt 2 * y, Real.sqrt 2 * x)
  | 4 => (Real.sqrt 2 * x, -(Real.sqrt 2 * y))
  | 5 => (Real.sqrt 1.5 * (2 * x * y), Real.sqrt 1.5 * (x ^ 2 + 3 * y ^ 2 - 1))
  | 6 => (Real.sqrt 1.5 * (3 * x ^ 2 + y ^ 2 - 1), Real.sqrt 1.5 * (2 * x * y))
  | 9 => (2 * (3 * x ^ 3 + 3 * x * y ^ 2 - 2 * x), 2 * (3 * x ^ 2 * y + 3 * y ^ 3 - 2 * y))
  | 20 => (Real.sqrt 6 * (10 * x ^ 5 + 20 * x ^ 3 * y ^ 2 - 12 * x ^ 3 + 10 * x * y ^ 4 - 12 * x * y ^ 2 + 3 * x),
           Real.sqrt 6 * (10 * x ^ 4 * y + 20 * x ^ 2 * y ^ 3 - 12 * x ^ 2 * y + 10 * y ^ 5 - 12 * y ^ 3 + 3 * y))
  | 27 => (Real.sqrt 2 * y, -(Real.sqrt 2 * x))
  | 28 => (Real.sqrt 1.5 * (x ^ 2 + 3 * y ^ 2 - 1), -(Real.sqrt 1.5 * (2 * x * y)))
  | 29 => (Real.sqrt 1.5 * (2 * x * y), -(Real.sqrt 1.5 * (3 * x ^ 2 + y ^ 2 - 1)))
  | 30 => (2 * (3 * x ^ 2 * y + 3 * y ^ 3 - 2 * y), -(2 * (3 * x ^ 3 + 3 * x * y ^ 2 - 2 * x)))
  | _ => (0, 0)

theorem term_fld (x y : ℝ) : ∀ i ∈ defaultIds, ∃ k, getZhaoBurgeTerm i x y = .ok ((fld x y i).1, (fld x y i).2, k) := by
  have h4 := rh4; have h3 := rh3; have h12 := rh12; have h8 := rh8; have h6 := half_sqrt6
  intro i hi
  simp only [defaultIds, List.mem_cons, List.not_mem_nil, or_false] at hi
  rcases hi with rfl | rfl | rfl | rfl | rfl | rfl | rfl | rfl | rfl | rfl | rfl | rfl | rfl <;>
  · simp only [getZhaoBurgeTerm, getZ_1, getZ_2, getZ_3, getZ_4, getZ_5, getZ_6, getZ_7, getZ_8, getZ_16, getZ_17,
      fld, ev, Zp, List.map_cons, List.map_nil, List.sum_cons, List.sum_nil]
    refine ⟨_, congrArg Except.ok (Prod.ext ?_ (Prod.ext ?_ rfl))⟩ <;>
    · simp only [← mul_assoc, neg_mul, h4, h3, h12, h8, h6, Real.sqrt_one]
      try (push_cast; ring)

/-- The distortion of the default fields. -/
theorem default_xy (c : Fin 13 → ℝ) (x y : ℝ) : getZhaoBurgeXY defaultIds (List.ofFn c) x y = .ok
    (c 0 + Real.sqrt 2 * ((c 2 + c 4) * x + (c 3 + c 9) * y) +
      Real.sqrt 1.5 * ((3 * c 6 + c 10) * x ^ 2 + (c 6 + 3 * c 10) * y ^ 2 - (c 6 + c 10) + 2 * (c 5 + c 11) * x * y) +
      2 * (c 7 * (3 * x ^ 3 + 3 * x * y ^ 2 - 2 * x) + c 12 * (3 * x ^ 2 * y + 3 * y ^ 3 - 2 * y)) +
      Real.sqrt 6 * c 8 * (10 * x ^ 5 + 20 * x ^ 3 * y ^ 2 - 12 * x ^ 3 + 10 * x * y ^ 4 - 12 * x * y ^ 2 + 3 * x),
     c 1 + Real.sqrt 2 * ((c 3 - c 9) * x + (c 2 - c 4) * y) +
      Real.sqrt 1.5 * ((c 5 - 3 * c 11) * x ^ 2 + (3 * c 5 - c 11) * y ^ 2 - (c 5 - c 11) + 2 * (c 6 - c 10) * x * y) +
      2 * (c 7 * (3 * x ^ 2 * y + 3 * y ^ 3 - 2 * y) - c 12 * (3 * x ^ 3 + 3 * x * y ^ 2 - 2 * x)) +
      Real.sqrt 6 * c 8 * (10 * x ^ 4 * y + 20 * x ^ 2 * y ^ 3 - 12 * x ^ 2 * y + 10 * y ^ 5 - 12 * y ^ 3 + 3 * y)) := by
  rw [C25_sum defaultIds _ x y (fld x y) (term_fld x y)]
  have e : List.ofFn c = [c 0, c 1, c 2, c 3, c 4, c 5, c 6, c 7, c 8, c 9, c 10, c 11, c 12] := by
    simp [List.ofFn_succ]
  rw [e]
  simp only [defaultIds, List.zip_cons_cons, List.zip_nil_right, List.map_cons, List.map_nil, List.sum_cons, List.sum_nil, fld]
  congr 2 <;> ring

theorem default_known : ∀ i ∈ defaultIds, i < 33 := by decide

/-! ### Specification -/

/-- Squared distance in mm² between a target and the image of a point (0 if there is an exception). -/
def err (f : ℝ × ℝ → Except PyErr (ℝ × ℝ)) (src tgt : ℝ × ℝ) : ℝ :=
  match f src with
  | .ok p => sqDist tgt p
  | .error _ => 0

/-- The object has as many coefficients as fields, all of them known. -/
def Proper (s : State) : Prop :=
  (∀ i ∈ s.polids, i < 33) ∧ s.fwd.length = s.polids.length ∧ s.bwd.length = s.polids.length

/-! ### Auxiliary facts -/

theorem fit_ok {s s' : State} {l : List Pair} (h : fit s l = (.ok (), s')) :
    ∃ c c', fitZhaoBurge s.polids (l.map fwdPt) = .ok c ∧ fitZhaoBurge s.polids (l.map bwdPt) = .ok c' ∧
      s' = ⟨s.polids, List.ofFn c, List.ofFn c'⟩ := by
  unfold fit at h
  split at h
  · cases h
  · next c hc =>
    dsimp only at h
    split at h
    · cases h
    · next c' hc' =>
      injection h with h1 h2
      exact ⟨c, c', hc, hc', h2.symm⟩

theorem exists_ofFn {α : Type*} {n : ℕ} (l : List α) (h : l.length = n) : ∃ c : Fin n → α, l = List.ofFn c := by
  subst h
  exact ⟨fun i => l[i], by simp⟩

theorem xy_ok {ids : List ℕ} (h : ∀ i ∈ ids, i < 33) (cs : List ℝ) (x y : ℝ) :
    ∃ d, getZhaoBurgeXY ids cs x y = .ok d := by
  obtain ⟨F, hF⟩ := fields_exist ids h x y
  exact ⟨_, C25_sum ids cs x y F hF⟩

theorem dm2pm_ok {s : State} (h : ∀ i ∈ s.polids, i < 33) (p : ℝ × ℝ) : ∃ q, dm2pm s p = .ok q := by
  obtain ⟨d, hd⟩ := xy_ok h s.fwd (reduceXY p).1 (reduceXY p).2
  unfold dm2pm
  simp only [hd]
  exact ⟨_, rfl⟩

/-- Both maps are the same function of ids and coefficients. -/
theorem pm2dm_eq (s : State) (p : ℝ × ℝ) : pm2dm s p = dm2pm ⟨s.polids, s.bwd, s.fwd⟩ p := rfl

theorem dm2pm_iff {ids : List ℕ} {cs b : List ℝ} (p q : ℝ × ℝ) : dm2pm ⟨ids, cs, b⟩ p = .ok q ↔
    getZhaoBurgeXY ids cs (p.1 / 420) (p.2 / 420) = .ok (q.1 / 420 - p.1 / 420, q.2 / 420 - p.2 / 420) := by
  unfold dm2pm reduceXY expandXY
  dsimp only
  cases hd : getZhaoBurgeXY ids cs (p.1 / 420) (p.2 / 420) with
  | error e => simp [bind, Except.bind]
  | ok d =>
    simp only [bind, Except.bind, pure, Except.pure, Except.ok.injEq]
    constructor
    · rintro rfl
      ext <;> dsimp only <;> ring
    · rintro rfl
      ext <;> dsimp only <;> ring

theorem err_eq {ids : List ℕ} (h : ∀ i ∈ ids, i < 33) (c : Fin ids.length → ℝ) (b : List ℝ) (l : List Pair)
    (src tgt : Pair → ℝ × ℝ) :
    (l.map fun q => err (dm2pm ⟨ids, List.ofFn c, b⟩) (src q) (tgt q)).sum = 420 ^ 2 *
      residual ids c (l.map fun q => ⟨(reduceXY (src q)).1, (reduceXY (src q)).2, (reduceXY (tgt q)).1, (reduceXY (tgt q)).2⟩) := by
  unfold residual
  rw [List.map_map, ← List.sum_map_mul_left]
  congr 1
  apply List.map_congr_left
  intro q _
  obtain ⟨d, hd⟩ := xy_ok h (List.ofFn c) (reduceXY (src q)).1 (reduceXY (src q)).2
  unfold err dm2pm
  simp only [hd, Function.comp, bind, Except.bind, pure, Except.pure]
  unfold sqDist expandXY reduceXY
  ring

theorem fwd_map (l : List Pair) : l.map fwdPt = l.map fun q =>
    (⟨(reduceXY q.dm).1, (reduceXY q.dm).2, (reduceXY q.pm).1, (reduceXY q.pm).2⟩ : FitPt) := rfl

theorem bwd_map (l : List Pair) : l.map bwdPt = l.map fun q =>
    (⟨(reduceXY q.pm).1, (reduceXY q.pm).2, (reduceXY q.dm).1, (reduceXY q.dm).2⟩ : FitPt) := rfl

/-! ### Theorems -/

/-- **C66** A new object changes nothing in either direction. -/
theorem C66_fresh (p : ℝ × ℝ) : dm2pm fresh p = .ok p ∧ pm2dm fresh p = .ok p := by
  rw [pm2dm_eq]
  unfold fresh
  constructor <;>
  · rw [dm2pm_iff, C25_zero _ default_known]
    simp

theorem idOf_cast (n : ℕ) : idOf (n : ℝ) = n := by
  unfold idOf; simp

/-- **C66** Writing and reading back gives the same object, whatever its ids and coefficients, and
touches no other file. -/
theorem C66_roundtrip (s : State) (fs : Files) (name : PyStr) (h : dotJson <:+: name) :
    ∃ fs', writeFile s fs name = .ok fs' ∧ readFile fs' name = .ok s ∧ ∀ other, other ≠ name → fs' other = fs other := by
  refine ⟨_, if_pos h, ?_, fun o ho => Function.update_of_ne ho _ _⟩
  unfold readFile
  rw [if_pos h, Function.update_self]
  dsimp only
  unfold fromJson
  have h1 : getNums (toJson s) "zbpolids" = .ok (s.polids.map (↑)) := getNums_nums _ _ _ (by simp [toJson, List.lookup])
  have h2 : getNums (toJson s) "dm2pm_zbcoeffs" = .ok s.fwd := getNums_nums _ _ _ (by simp [toJson, List.lookup])
  have h3 : getNums (toJson s) "pm2dm_zbcoeffs" = .ok s.bwd := getNums_nums _ _ _ (by simp [toJson, List.lookup])
  have h4 : assertStr (toJson s) "method" "Zhao-Burge" = .ok () := by
    simp [toJson, assertStr, getKey, List.lookup, bind, Except.bind, pure, Except.pure]
  have h5 : getKey (toJson s) "version" = .ok (.str "1") := by
    simp [toJson, getKey, List.lookup]
  simp only [h1, h2, h3, h4, h5, bind, Except.bind, isVersion1, decide_true, if_true, pure, Except.pure, List.map_map]
  congr 2
  have : (idOf ∘ fun n : ℕ => (n : ℝ)) = id := funext idOf_cast
  rw [this, List.map_id]

/-- **C66** Other file names are refused by both; a document is only accepted with the right method
and version. -/
theorem C66_refused (s : State) (fs : Files) (name : PyStr) :
    (¬ dotJson <:+: name → writeFile s fs name = .error .runtimeError ∧ readFile fs name = .error .runtimeError) ∧
    (dotJson <:+: name → fs name = none → readFile fs name = .error .fileNotFound) ∧
    (dotJson <:+: name → ∀ d, fs name = some d →
      (d.lookup "method" = none → readFile fs name = .error .keyError) ∧
      (∀ m, d.lookup "method" = some m → m ≠ .str "Zhao-Burge" → readFile fs name = .error .assertionError) ∧
      (∀ v, d.lookup "method" = some (.str "Zhao-Burge") → d.lookup "version" = some v → v ≠ .str "1" →
        readFile fs name = .error .runtimeError)) := by
  refine ⟨fun h => ⟨if_neg h, if_neg h⟩, fun h hn => ?_, fun h d hd => ⟨fun hm => ?_, fun m hm hne => ?_, fun v hm hv hne => ?_⟩⟩
  · unfold readFile; rw [if_pos h, hn]
  all_goals
    unfold readFile fromJson assertStr getKey
    rw [if_pos h, hd]
    simp only [hm, bind, Except.bind]
  · cases m <;> simp_all
  · simp only [hv, if_true, pure, Except.pure]
    have : isVersion1 v = false := by
      cases v <;> simp_all [isVersion1]
    simp [this]

/-- **C66** After a successful fit no coefficients for the same fields bring the desimeter positions
closer to the PlateMaker positions, nor conversely (sum of squared distances in mm²). -/
theorem C66_least_squares (s s' t : State) (l : List Pair) (hf : fit s l = (.ok (), s')) (ht : Proper t)
    (hi : t.polids = s.polids) :
    (l.map fun q => err (dm2pm s') q.dm q.pm).sum ≤ (l.map fun q => err (dm2pm t) q.dm q.pm).sum ∧
    (l.map fun q => err (pm2dm s') q.pm q.dm).sum ≤ (l.map fun q => err (pm2dm t) q.pm q.dm).sum := by
  obtain ⟨c, c', hc, hc', rfl⟩ := fit_ok hf
  obtain ⟨hk, h1, h2⟩ := ht
  obtain ⟨ids, f, b⟩ := t
  simp only at hi hk h1 h2
  subst hi
  obtain ⟨a, rfl⟩ := exists_ofFn f h1
  obtain ⟨a', rfl⟩ := exists_ofFn b h2
  constructor
  · rw [err_eq hk c, err_eq hk a, ← fwd_map]
    exact mul_le_mul_of_nonneg_left (C62_optimal _ hk _ a c hc) (by positivity)
  · have e : ∀ x y : List ℝ, (fun q : Pair => err (pm2dm ⟨s.polids, x, y⟩) q.pm q.dm) =
        fun q : Pair => err (dm2pm ⟨s.polids, y, x⟩) q.pm q.dm := fun _ _ => rfl
    rw [e, e, err_eq hk c', err_eq hk a', ← bwd_map]
    exact mul_le_mul_of_nonneg_left (C62_optimal _ hk _ a' c' hc') (by positivity)

/-- **C66** If the PlateMaker positions are the desimeter positions distorted by any combination of
the fields, then the fitted `dm2pm` is this distortion everywhere; likewise for `pm2dm`. -/
theorem C66_exact (s s' t : State) (l : List Pair) (hf : fit s l = (.ok (), s')) (ht : Proper t)
    (hi : t.polids = s.polids) :
    ((∀ q ∈ l, dm2pm t q.dm = .ok q.pm) → ∀ p, dm2pm s' p = dm2pm t p) ∧
    ((∀ q ∈ l, pm2dm t q.pm = .ok q.dm) → ∀ p, pm2dm s' p = pm2dm t p) := by
  obtain ⟨c, c', hc, hc', rfl⟩ := fit_ok hf
  obtain ⟨hk, h1, h2⟩ := ht
  obtain ⟨ids, f, b⟩ := t
  simp only at hi hk h1 h2
  subst hi
  obtain ⟨a, rfl⟩ := exists_ofFn f h1
  obtain ⟨a', rfl⟩ := exists_ofFn b h2
  constructor
  · intro h p
    have := C62_exact s.polids hk (l.map fwdPt) a c (by
      intro q' hq'
      obtain ⟨q, hq, rfl⟩ := List.mem_map.1 hq'
      exact (dm2pm_iff _ _).1 (h q hq)) hc
    subst this
    rfl
  · intro h p
    have := C62_exact s.polids hk (l.map bwdPt) a' c' (by
      intro q' hq'
      obtain ⟨q, hq, rfl⟩ := List.mem_map.1 hq'
      exact (dm2pm_iff (b := List.ofFn a) _ _).1 (h q hq)) hc'
    subst this
    rfl

/-- Coefficients of an affine map (reduced coordinates). -/
noncomputable def affCoeffs (m : Affine) : Fin 13 → ℝ :=
  ![m.t1 / 420, m.t2 / 420, (m.m11 - 1 + (m.m22 - 1)) / (2 * Real.sqrt 2), (m.m12 + m.m21) / (2 * Real.sqrt 2),
    (m.m11 - 1 - (m.m22 - 1)) / (2 * Real.sqrt 2), 0, 0, 0, 0, (m.m12 - m.m21) / (2 * Real.sqrt 2), 0, 0, 0]

theorem aff_map (m : Affine) (b : List ℝ) (p : ℝ × ℝ) :
    dm2pm ⟨defaultIds, List.ofFn (affCoeffs m), b⟩ p = .ok (m.app p) := by
  rw [dm2pm_iff, default_xy]
  have h2 : Real.sqrt 2 ≠ 0 := by positivity
  congr 1
  simp only [affCoeffs, Affine.app]
  simp only [Matrix.cons_val]
  ext <;> dsimp only <;> field_simp <;> ring

/-- The inverse affine map. -/
noncomputable def invAff (m : Affine) : Affine :=
  let d := m.m11 * m.m22 - m.m12 * m.m21
  ⟨(m.m12 * m.t2 - m.m22 * m.t1) / d, (m.m21 * m.t1 - m.m11 * m.t2) / d, m.m22 / d, -m.m12 / d, -m.m21 / d, m.m11 / d⟩

theorem invAff_app (m : Affine) (h : m.m11 * m.m22 - m.m12 * m.m21 ≠ 0) (p : ℝ × ℝ) : (invAff m).app (m.app p) = p := by
  unfold invAff Affine.app
  dsimp only
  obtain ⟨d, hd⟩ : ∃ d, d = m.m11 * m.m22 - m.m12 * m.m21 := ⟨_, rfl⟩
  rw [← hd] at h ⊢
  ext <;> dsimp only <;> field_simp <;> rw [hd] <;> ring

/-- **C66** If the PlateMaker positions are an invertible affine image of the desimeter positions,
a successful fit (of an object with the default fields) gives exactly this map in one direction and its
inverse in the other, everywhere. -/
theorem C66_affine (s s' : State) (hs : s.polids = defaultIds) (l : List Pair) (hf : fit s l = (.ok (), s')) (m : Affine)
    (hm : m.m11 * m.m22 - m.m12 * m.m21 ≠ 0) (h : ∀ q ∈ l, q.pm = m.app q.dm) (p : ℝ × ℝ) :
    dm2pm s' p = .ok (m.app p) ∧ pm2dm s' (m.app p) = .ok p := by
  let t : State := ⟨defaultIds, List.ofFn (affCoeffs m), List.ofFn (affCoeffs (invAff m))⟩
  have ht : Proper t := ⟨default_known, by simp [t, defaultIds], by simp [t, defaultIds]⟩
  obtain ⟨h1, h2⟩ := C66_exact s s' t l hf ht hs.symm
  constructor
  · rw [h1 (fun q hq => by rw [h q hq]; exact aff_map m _ _)]
    exact aff_map m _ _
  · rw [h2 (fun q hq => by
      rw [h q hq, pm2dm_eq]
      refine (aff_map (invAff m) _ _).trans ?_
      rw [invAff_app m hm]), pm2dm_eq]
    refine (aff_map (invAff m) _ _).trans ?_
    rw [invAff_app m hm]

/-- Seven positions on the axes. -/
def cross : List (ℝ × ℝ) := [(0, 0), (140, 0), (-140, 0), (0, 140), (0, -140), (280, 0), (420, 0)]

theorem cross_solvable (l : List FitPt) (h : ∀ p ∈ cross, ∃ q ∈ l, q.x = p.1 / 420 ∧ q.y = p.2 / 420) :
    ∃ c, fitZhaoBurge defaultIds l = .ok c := by
  rw [C62_solvable defaultIds default_known]
  rintro ⟨c, hc, hz⟩
  apply hc
  have key : ∀ p ∈ cross, getZhaoBurgeXY defaultIds (List.ofFn c) (p.1 / 420) (p.2 / 420) = .ok (0, 0) := by
    intro p hp
    obtain ⟨q, hq, h1, h2⟩ := h p hp
    rw [← h1, ← h2]; exact hz q hq
  change Fin 13 → ℝ at c
  have k : Real.sqrt 1.5 ≠ 0 := by positivity
  have k2 : Real.sqrt 2 ≠ 0 := by positivity
  have k6 : Real.sqrt 6 ≠ 0 := by positivity
  have e : ∀ a b : ℝ, (a, b) ∈ cross → _ := fun a b hab => (default_xy c (a / 420) (b / 420)).symm.trans (key (a, b) hab)
  have e1 := e 0 0 (by simp [cross])
  have e2 := e 140 0 (by simp [cross])
  have e3 := e (-140) 0 (by simp [cross])
  have e4 := e 0 140 (by simp [cross])
  have e5 := e 0 (-140) (by simp [cross])
  have e6 := e 280 0 (by simp [cross])
  have e7 := e 420 0 (by simp [cross])
  clear e key hz
  simp only [Except.ok.injEq, Prod.mk.injEq] at e1 e2 e3 e4 e5 e6 e7
  obtain ⟨p1, q1⟩ := e1
  obtain ⟨p2, q2⟩ := e2
  obtain ⟨p3, q3⟩ := e3
  obtain ⟨p4, q4⟩ := e4
  obtain ⟨p5, q5⟩ := e5
  obtain ⟨p6, q6⟩ := e6
  obtain ⟨p7, q7⟩ := e7
  generalize Real.sqrt 1.5 = K at *
  generalize Real.sqrt 2 = S at *
  generalize Real.sqrt 6 = T at *
  norm_num at p1 q1 p2 q2 p3 q3 p4 q4 p5 q5 p6 q6 p7 q7
  have a6 : K * c 6 = 0 := by linarith
  have a10 : K * c 10 = 0 := by linarith
  have a5 : K * c 5 = 0 := by linarith
  have a11 : K * c 11 = 0 := by linarith
  have a0 : c 0 = 0 := by linarith
  have a1 : c 1 = 0 := by linarith
  have a8 : T * c 8 = 0 := by linarith
  have a7 : c 7 = 0 := by linarith
  have a12 : c 12 = 0 := by linarith
  have a2 : S * c 2 = 0 := by linarith
  have a4 : S * c 4 = 0 := by linarith
  have a3 : S * c 3 = 0 := by linarith
  have a9 : S * c 9 = 0 := by linarith
  have z : ∀ {a b : ℝ}, a ≠ 0 → a * b = 0 → b = 0 := fun h1 h2 => (mul_eq_zero.1 h2).resolve_left h1
  have b6 := z k a6
  have b10 := z k a10
  have b5 := z k a5
  have b11 := z k a11
  have b8 := z k6 a8
  have b2 := z k2 a2
  have b4 := z k2 a4
  have b3 := z k2 a3
  have b9 := z k2 a9
  funext i
  fin_cases i <;> assumption

/-- **C66** A fit of an object with the default fields succeeds if the seven positions of `cross`
(centre, 140 mm along both axes, 280 mm and 420 mm along x) are among the positions of both kinds. -/
theorem C66_cross (s : State) (hs : s.polids = defaultIds) (l : List Pair) (h1 : ∀ p ∈ cross, ∃ q ∈ l, q.dm = p)
    (h2 : ∀ p ∈ cross, ∃ q ∈ l, q.pm = p) : ∃ s', fit s l = (.ok (), s') := by
  obtain ⟨ids, f, b⟩ := s
  simp only at hs
  subst hs
  obtain ⟨c, hc⟩ := cross_solvable (l.map fwdPt) (fun p hp => by
    obtain ⟨q, hq, rfl⟩ := h1 p hp
    exact ⟨_, List.mem_map.2 ⟨q, hq, rfl⟩, rfl, rfl⟩)
  obtain ⟨c', hc'⟩ := cross_solvable (l.map bwdPt) (fun p hp => by
    obtain ⟨q, hq, rfl⟩ := h2 p hp
    exact ⟨_, List.mem_map.2 ⟨q, hq, rfl⟩, rfl, rfl⟩)
  unfold fit
  simp only [hc, hc']
  exact ⟨_, rfl⟩

/-- **C66** A fit fails with LinAlgError exactly when some combination of the fields, not all
coefficients zero, moves none of the desimeter positions or none of the PlateMaker positions. -/
theorem C66_fails_iff (s : State) (hk : ∀ i ∈ s.polids, i < 33) (l : List Pair) :
    ((fit s l).1 = .error .linAlgError ∨ (fit s l).1 = .ok ()) ∧
    ((fit s l).1 = .error .linAlgError ↔ ∃ t : State, Proper t ∧ t.polids = s.polids ∧ (∃ c ∈ t.fwd, c ≠ 0) ∧
      ((∀ q ∈ l, dm2pm t q.dm = .ok q.dm) ∨ ∀ q ∈ l, dm2pm t q.pm = .ok q.pm)) := by
  have key : ∀ (g : Pair → FitPt) (src : Pair → ℝ × ℝ), (∀ q, (g q).x = (src q).1 / 420 ∧ (g q).y = (src q).2 / 420) →
      (fitZhaoBurge s.polids (l.map g) = .error .linAlgError ∨ ∃ c, fitZhaoBurge s.polids (l.map g) = .ok c) ∧
      ((∃ c, fitZhaoBurge s.polids (l.map g) = .ok c) ↔
        ¬ ∃ t : State, Proper t ∧ t.polids = s.polids ∧ (∃ c ∈ t.fwd, c ≠ 0) ∧ ∀ q ∈ l, dm2pm t (src q) = .ok (src q)) := by
    intro g src hg
    constructor
    · unfold fitZhaoBurge linSolve
      rw [any_known hk]
      simp only [Bool.false_eq_true, if_false]
      split_ifs <;> simp
    · rw [C62_solvable s.polids hk]
      apply not_congr
      constructor
      · rintro ⟨c, hc, h⟩
        refine ⟨⟨s.polids, List.ofFn c, List.ofFn c⟩, ⟨hk, by simp, by simp⟩, rfl, ?_, fun q hq => ?_⟩
        · obtain ⟨i, hi⟩ := Function.ne_iff.1 hc
          exact ⟨c i, by simp [List.mem_ofFn], hi⟩
        · rw [dm2pm_iff, ← (hg q).1, ← (hg q).2, h (g q) (List.mem_map_of_mem hq)]
          simp
      · rintro ⟨⟨ids, f, b⟩, ⟨-, hp, -⟩, hi, ⟨x, hx, hx0⟩, h⟩
        simp only at hi hp hx h
        subst hi
        obtain ⟨c, rfl⟩ := exists_ofFn f hp
        refine ⟨c, ?_, fun q' hq' => ?_⟩
        · rintro rfl
          obtain ⟨i, rfl⟩ := List.mem_ofFn.1 hx
          exact hx0 rfl
        · obtain ⟨q, hq, rfl⟩ := List.mem_map.1 hq'
          have := (dm2pm_iff _ _).1 (h q hq)
          rw [(hg q).1, (hg q).2, this]
          simp
  obtain ⟨f1, f2⟩ := key fwdPt (·.dm) (fun q => ⟨rfl, rfl⟩)
  obtain ⟨g1, g2⟩ := key bwdPt (·.pm) (fun q => ⟨rfl, rfl⟩)
  have split : (∃ t : State, Proper t ∧ t.polids = s.polids ∧ (∃ c ∈ t.fwd, c ≠ 0) ∧
      ((∀ q ∈ l, dm2pm t q.dm = .ok q.dm) ∨ ∀ q ∈ l, dm2pm t q.pm = .ok q.pm)) ↔
      ¬ ((∃ c, fitZhaoBurge s.polids (l.map fwdPt) = .ok c) ∧ ∃ c, fitZhaoBurge s.polids (l.map bwdPt) = .ok c) := by
    rw [f2, g2, ← not_or, not_not]
    constructor
    · rintro ⟨t, h1, h2, h3, h4 | h4⟩
      · exact Or.inl ⟨t, h1, h2, h3, h4⟩
      · exact Or.inr ⟨t, h1, h2, h3, h4⟩
    · rintro (⟨t, h1, h2, h3, h4⟩ | ⟨t, h1, h2, h3, h4⟩)
      · exact ⟨t, h1, h2, h3, Or.inl h4⟩
      · exact ⟨t, h1, h2, h3, Or.inr h4⟩
  rw [split]
  unfold fit
  rcases f1 with h1 | ⟨c, h1⟩
  · simp [h1]
  · rcases g1 with h2 | ⟨c', h2⟩
    · simp [h1, h2]
    · simp [h1, h2]

/-- **C66 disagreement**: a failing fit is not without effect. With PlateMaker positions all at the
centre the fit of a new object raises LinAlgError, and afterwards `dm2pm` sends everything to the centre
while `pm2dm` is still the identity. -/
theorem C66_half_updated : ∃ (l : List Pair) (s' : State), fit fresh l = (.error .linAlgError, s') ∧
    ∀ p, dm2pm s' p = .ok (0, 0) ∧ pm2dm s' p = .ok p := by
  let l : List Pair := cross.map fun p => ⟨p, (0, 0)⟩
  obtain ⟨c, hc⟩ := cross_solvable (l.map fwdPt) (fun p hp =>
    ⟨_, List.mem_map.2 ⟨⟨p, (0, 0)⟩, List.mem_map.2 ⟨p, hp, rfl⟩, rfl⟩, rfl, rfl⟩)
  have hne : ¬ ∃ c', fitZhaoBurge defaultIds (l.map bwdPt) = .ok c' := by
    rw [C62_solvable _ default_known, not_not]
    refine ⟨(fun i : Fin 13 => if i = 2 then 1 else 0 : Fin 13 → ℝ), ?_, ?_⟩
    · intro h
      have : (1 : ℝ) = 0 := congrFun h (2 : Fin 13)
      exact one_ne_zero this
    · intro q' hq'
      obtain ⟨q, hq, rfl⟩ := List.mem_map.1 hq'
      obtain ⟨p, hp, rfl⟩ := List.mem_map.1 hq
      refine (default_xy _ _ _).trans ?_
      have h0 : ∀ i : Fin 13, i ≠ 2 → (if i = 2 then (1 : ℝ) else 0) = 0 := fun i hi => if_neg hi
      simp only [bwdPt, reduceXY]
      rw [h0 0 (by decide), h0 1 (by decide), h0 6 (by decide), h0 10 (by decide), h0 5 (by decide), h0 11 (by decide)]
      congr 2 <;> ring
  have hlin : fitZhaoBurge defaultIds (l.map bwdPt) = .error .linAlgError := by
    unfold fitZhaoBurge linSolve at hne ⊢
    rw [any_known default_known] at hne ⊢
    simp only [Bool.false_eq_true, if_false] at hne ⊢
    split_ifs at hne ⊢ with hd
    · rfl
    · exact absurd ⟨_, rfl⟩ hne
  refine ⟨l, ⟨defaultIds, List.ofFn c, fresh.bwd⟩, ?_, fun p => ⟨?_, (C66_fresh p).2⟩⟩
  · unfold fit
    have h1 : fitZhaoBurge fresh.polids (l.map fwdPt) = .ok c := hc
    rw [h1]
    dsimp only
    have h2 : fitZhaoBurge fresh.polids (l.map bwdPt) = .error .linAlgError := hlin
    rw [h2]
    rfl
  · have := C62_exact defaultIds default_known (l.map fwdPt) (affCoeffs ⟨0, 0, 0, 0, 0, 0⟩) c (by
      intro q' hq'
      obtain ⟨q, hq, rfl⟩ := List.mem_map.1 hq'
      obtain ⟨p, hp, rfl⟩ := List.mem_map.1 hq
      refine (dm2pm_iff (b := []) p (0, 0)).1 ?_
      refine (aff_map _ _ _).trans ?_
      simp [Affine.app]) hc
    rw [this]
    refine (aff_map _ _ _).trans ?_
    simp [Affine.app]

/-! ### The hypotheses can be met -/

/-- A reflection maps the cross to itself: the fit succeeds and is the reflection everywhere. -/
example : ∃ s', fit fresh (cross.map fun p => ⟨p, (p.1, -p.2)⟩) = (.ok (), s') ∧
    ∀ p, dm2pm s' p = .ok (p.1, -p.2) ∧ pm2dm s' (p.1, -p.2) = .ok p := by
  obtain ⟨s', hs'⟩ := C66_cross fresh rfl (cross.map fun p => ⟨p, (p.1, -p.2)⟩)
    (fun p hp => ⟨_, List.mem_map.2 ⟨p, hp, rfl⟩, rfl⟩)
    (fun p hp => by
      simp only [cross, List.mem_cons, List.not_mem_nil, or_false] at hp
      rcases hp with rfl | rfl | rfl | rfl | rfl | rfl | rfl <;> simp [cross])
  refine ⟨s', hs', fun p => ?_⟩
  have := C66_affine fresh s' rfl _ hs' ⟨0, 0, 1, 0, 0, -1⟩ (by norm_num) (by
    intro q hq
    obtain ⟨p, hp, rfl⟩ := List.mem_map.1 hq
    simp [Affine.app]) p
  simpa [Affine.app] using this

example : Proper fresh := ⟨default_known, by simp [fresh], by simp [fresh]⟩

example : dotJson <:+: ['a', '.', 'j', 's', 'o', 'n'] := by decide

end Verif.Props.Dm2pm
