import Verif.Lemmas.Echo22
import Mathlib.Analysis.SpecialFunctions.Trigonometric.Bounds
import Verif.Props.TurbPolyEx

/-!
# C74: Echo22 optics model (`transform/tan2fp/echo22.py`)

`np.polyfit` is any routine that returns coefficients with the smallest sum of squared residuals. All statements hold after any
sequence of earlier calls.
-/

namespace Verif.Props.Echo22
open Verif.Py Verif.Model.Echo22 Verif.Model.Trig Verif.Lemmas.Echo22 Verif.Lemmas.Poly Verif.Lemmas.Trig

/-- Value of the polynomial with coefficients `c`, highest power first. -/
def polyAt (c : List ℝ) (x : ℝ) : ℝ := ∑ i ∈ Finset.range c.length, c.getD i 0 * x ^ (c.length - 1 - i)

/-- Sum of the squared residuals. -/
def residuals (x y : List ℝ) (c : List ℝ) : ℝ := ((x.zip y).map fun p => (polyAt c p.1 - p.2) ^ 2).sum

/-- `polyfit` minimises the sum of the squared residuals. -/
def IsPolyfit (polyfit : Polyfit) : Prop :=
  ∀ x y d, x.length = y.length → (polyfit x y d).length = d + 1 ∧
    ∀ c, c.length = d + 1 → residuals x y (polyfit x y d) ≤ residuals x y c

/-- Calls of the functions of the module. -/
inductive Call
  | tan2fp (x y : ℝ)
  | fp2tan (x y : ℝ)
  | radius2theta (r : ℝ)
  | theta2radius (t : ℝ)

/-- State after one call. -/
noncomputable def step (pf : Polyfit) (st : Cache) : Call → Cache
  | .tan2fp x y => (tan2fp pf x y st).2
  | .fp2tan x y => (fp2tan pf x y st).2
  | .radius2theta r => (radius2theta pf r st).2
  | .theta2radius t => (theta2radius pf t st).2

/-- State after import and a sequence of calls. -/
noncomputable def after (pf : Polyfit) (calls : List Call) : Cache := calls.foldl (step pf) Cache.empty

/-! ### The state -/

def Good (pf : Polyfit) (st : Cache) : Prop :=
  st = ⟨none, none⟩ ∨ st = ⟨some (fitR2theta pf).1, some (fitR2theta pf).2⟩

theorem good_after (pf : Polyfit) (calls : List Call) : Good pf (after pf calls) := by
  have key : ∀ st, Good pf st → Good pf (calls.foldl (step pf) st) := by
    induction calls with
    | nil => intro st h; exact h
    | cons a l ih =>
      intro st h
      apply ih
      rcases h with rfl | rfl <;> right <;> cases a <;> rfl
  exact key _ (.inl rfl)

theorem radius2theta_val (pf : Polyfit) {st : Cache} (h : Good pf st) (r : ℝ) :
    (radius2theta pf r st).1 = polyvalR (fitR2theta pf).1 (r / 415) := by
  rcases h with rfl | rfl <;> rfl

theorem theta2radius_val (pf : Polyfit) {st : Cache} (h : Good pf st) (t : ℝ) :
    (theta2radius pf t st).1 = polyvalR (fitR2theta pf).2 t := by
  rcases h with rfl | rfl <;> rfl

/-! ### The polynomials -/

theorem polyAt_append (c : List ℝ) (a x : ℝ) : polyAt (c ++ [a]) x = polyAt c x * x + a := by
  unfold polyAt
  rw [List.length_append, List.length_singleton, Finset.sum_range_succ, Finset.sum_mul]
  congr 1
  · apply Finset.sum_congr rfl
    intro i hi
    have hi := Finset.mem_range.1 hi
    rw [mul_assoc, ← pow_succ, List.getD_eq_getElem?_getD, List.getD_eq_getElem?_getD, List.getElem?_append_left hi]
    congr 2
    omega
  · simp [List.getD_eq_getElem?_getD]

theorem polyval_polyAt (c : List ℝ) (x : ℝ) : polyvalR c x = polyAt c x := by
  induction c using List.reverseRecOn with
  | nil => simp [polyvalR, polyAt]
  | append_singleton c a ih =>
    rw [polyAt_append, ← ih]
    simp [polyvalR]

theorem polyAt_pol (c : List ℝ) (x : ℝ) : polyAt c x = pol c.length (fun j => c.getD (c.length - 1 - j) 0) x := by
  unfold polyAt pol
  rw [← Finset.sum_range_reflect]
  apply Finset.sum_congr rfl
  intro i hi
  have hi := Finset.mem_range.1 hi
  congr 2
  omega

/-- Coefficients of a certified polynomial, highest power first. -/
noncomputable def top (p : List ℚ) : List ℝ := (p.map fun a : ℚ => (a : ℝ)).reverse

theorem polyAt_top (p : List ℚ) (x : ℝ) : polyAt (top p) x = ev p x := by
  induction p with
  | nil => simp [polyAt, top, ev]
  | cons a p ih =>
    unfold top at ih ⊢
    rw [List.map_cons, List.reverse_cons, polyAt_append, ih, ev]
    ring

/-- Any least-squares fit of the data `l` is the certified polynomial. -/
theorem fit_eq {pf : Polyfit} (hpf : IsPolyfit pf) (a b B : Int) (ha : a ≠ 0) (hb : b ≠ 0) (hB : B ≠ 0) (A : List Int)
    (hA : A.length = 6) (l : List (Int × Int)) (hn : ∀ i : Fin 6, moment A B l i = 0) (xs : Fin 6 → Int) (hx : Function.Injective xs)
    (hxl : ∀ i, xs i ∈ l.map Prod.fst) (x : ℝ) :
    polyvalR (pf (l.map fun r => (r.1 : ℝ) / a) (l.map fun r => (r.2 : ℝ) / b) 5) x = ev (coefs a b B A 0) x := by
  obtain ⟨hlen, hmin⟩ := hpf (l.map fun r => (r.1 : ℝ) / a) (l.map fun r => (r.2 : ℝ) / b) 5 (by simp)
  generalize hc : pf (l.map fun r => (r.1 : ℝ) / a) (l.map fun r => (r.2 : ℝ) / b) 5 = c at hlen hmin
  have ha' : (a : ℝ) ≠ 0 := by exact_mod_cast ha
  have hzip : (l.map fun r => (r.1 : ℝ) / a).zip (l.map fun r => (r.2 : ℝ) / b) = l.map fun r => ((r.1 : ℝ) / a, (r.2 : ℝ) / b) := by
    rw [List.zip_map', ]
  have hlp : (coefs a b B A 0).length = 6 := by rw [coefs_length, hA]
  rw [polyval_polyAt, polyAt_pol, hlen, ev_pol, hlp]
  apply ls_unique 6 _ _ (l.map fun r => ((r.1 : ℝ) / a, (r.2 : ℝ) / b)) ?_ ?_ (fun i => (xs i : ℝ) / a) ?_ ?_
  · intro i hi
    have := normal a b B ha hb hB A l i (hn ⟨i, hi⟩)
    simp only [ev_pol, hlp] at this
    exact this
  · have := hmin (top (coefs a b B A 0)) (by simp [top, hlp])
    unfold residuals at this
    rw [hzip] at this
    simp only [polyAt_top, ev_pol, hlp, polyAt_pol c, hlen] at this
    exact this
  · intro i j hij
    simp only at hij
    rw [div_left_inj' ha'] at hij
    exact hx (by exact_mod_cast hij)
  · intro i
    obtain ⟨r, hr, he⟩ := List.mem_map.1 (hxl i)
    exact ⟨_, List.mem_map.2 ⟨r, hr, rfl⟩, by simp [he]⟩

theorem r2t_eq {pf : Polyfit} (hpf : IsPolyfit pf) (x : ℝ) : polyvalR (fitR2theta pf).1 x = ev Q x := by
  have := fit_eq hpf 415 1000000000 QB (by norm_num) (by norm_num) (by decide +kernel) QA rfl rows Q_normal
    (fun i => (i : ℕ)) (fun i j h => by simpa [Fin.ext_iff] using h) (by decide +kernel) x
  unfold Q
  rw [← this]
  unfold fitR2theta rows rscale
  dsimp only
  rw [List.map_map]
  norm_num
  rfl

theorem t2r_eq {pf : Polyfit} (hpf : IsPolyfit pf) (x : ℝ) : polyvalR (fitR2theta pf).2 x = ev P x := by
  have := fit_eq hpf 1000000000 1 PB (by norm_num) (by norm_num) (by decide +kernel) PA rfl (rows.map Prod.swap) P_normal
    ![0, 4114797, 8229587, 12344363, 16459119, 20573847] (by decide) (by decide +kernel) x
  unfold P
  rw [← this]
  unfold fitR2theta rows
  dsimp only
  rw [List.map_map, List.map_map]
  norm_num
  rfl

/-! ### Positions -/

theorem atan2_polar {s phi : ℝ} (hs : 0 < s) (h1 : -Real.pi < phi) (h2 : phi ≤ Real.pi) :
    atan2 (s * Real.sin phi) (s * Real.cos phi) = phi := by
  have := Complex.arg_mul_cos_add_sin_mul_I hs ⟨h1, h2⟩
  unfold atan2
  have e : Complex.mk (s * Real.cos phi) (s * Real.sin phi) = s * (Complex.cos phi + Complex.sin phi * Complex.I) := by
    apply Complex.ext <;> simp [Complex.cos_ofReal_re, Complex.sin_ofReal_re]
  rw [e, this]

theorem hypot_polar' (s phi : ℝ) : hypot (s * Real.cos phi) (s * Real.sin phi) = |s| := by
  unfold hypot
  rw [show (s * Real.cos phi) ^ 2 + (s * Real.sin phi) ^ 2 = s ^ 2 * (Real.sin phi ^ 2 + Real.cos phi ^ 2) by ring, Real.sin_sq_add_cos_sq,
    mul_one, Real.sqrt_sq_eq_abs]

theorem polar_x (x y : ℝ) : hypot x y * Real.cos (atan2 y x) = x := by
  rw [hypot_norm, atan2]
  exact Complex.norm_mul_cos_arg _

theorem polar_y (x y : ℝ) : hypot x y * Real.sin (atan2 y x) = y := by
  rw [hypot_norm, atan2]
  exact Complex.norm_mul_sin_arg _

theorem arg_lt (x y : ℝ) : -Real.pi < atan2 y x ∧ atan2 y x ≤ Real.pi := Complex.arg_mem_Ioc _

theorem tan2fp_val {pf : Polyfit} (hpf : IsPolyfit pf) (x y : ℝ) (calls : List Call) (h : hypot x y ≤ 1) :
    (tan2fp pf x y (after pf calls)).1 =
      some (ev P (arcsind (hypot x y)) * Real.cos (atan2 y x), ev P (arcsind (hypot x y)) * Real.sin (atan2 y x)) := by
  have e := theta2radius_val pf (good_after pf calls) (arcsind (hypot x y))
  rw [t2r_eq hpf] at e
  unfold tan2fp
  dsimp only
  rw [if_pos h, e]

theorem fp2tan_val {pf : Polyfit} (hpf : IsPolyfit pf) (x y : ℝ) (calls : List Call) :
    (fp2tan pf x y (after pf calls)).1 =
      (sind (ev Q (hypot x y / 415)) * Real.cos (atan2 y x), sind (ev Q (hypot x y / 415)) * Real.sin (atan2 y x)) := by
  have e := radius2theta_val pf (good_after pf calls) (hypot x y)
  rw [r2t_eq hpf] at e
  unfold fp2tan
  dsimp only
  rw [e]

theorem sind_arcsind {t : ℝ} (h0 : 0 < t) (h1 : t ≤ 1.7) : 0 < sind t ∧ sind t ≤ 1 ∧ arcsind (sind t) = t := by
  have hpi := Real.pi_pos
  have h : radians t = t * Real.pi / 180 := by unfold radians; ring
  have ha : 0 < radians t := by rw [h]; positivity
  have hb : radians t < Real.pi / 2 := by rw [h]; nlinarith
  refine ⟨Real.sin_pos_of_pos_of_lt_pi ha (by linarith), Real.sin_le_one _, ?_⟩
  unfold arcsind sind
  rw [Real.arcsin_sin (by linarith) hb.le]
  unfold degrees radians
  field_simp

/-- **C74** From the focal plane to the tangent plane and back: less than 0.0007 mm anywhere within 415 mm. -/
theorem C74_round_trip_fp {pf : Polyfit} (hpf : IsPolyfit pf) (x y : ℝ) (h : hypot x y ≤ 415) (calls calls' : List Call) :
    ∃ p q, (fp2tan pf x y (after pf calls)).1 = p ∧ (tan2fp pf p.1 p.2 (after pf calls')).1 = some q ∧
      hypot (q.1 - x) (q.2 - y) < 0.0007 := by
  refine ⟨_, ?q, fp2tan_val hpf x y calls, ?_⟩
  case q => exact (ev P (ev Q (hypot x y / 415)) * Real.cos (atan2 y x), ev P (ev Q (hypot x y / 415)) * Real.sin (atan2 y x))
  have hn := hypot_nonneg x y
  have r0 : 0 ≤ hypot x y / 415 := by positivity
  have r1 : hypot x y / 415 ≤ 1 := by rw [div_le_one (by norm_num)]; exact h
  obtain ⟨q0, q1⟩ := Q_range _ r0 r1
  obtain ⟨s0, s1, s2⟩ := sind_arcsind q0 q1
  obtain ⟨a1, a2⟩ := arg_lt x y
  constructor
  · rw [tan2fp_val hpf _ _ _ (by rw [hypot_polar', abs_of_pos s0]; exact s1)]
    simp only
    rw [hypot_polar', abs_of_pos s0, s2, atan2_polar s0 a1 a2]
  · have e := PQ _ r0 r1
    rw [mul_div_cancel₀ _ (by norm_num)] at e
    have ex : ev P (ev Q (hypot x y / 415)) * Real.cos (atan2 y x) - x = (ev P (ev Q (hypot x y / 415)) - hypot x y) * Real.cos (atan2 y x) := by
      rw [sub_mul, polar_x]
    have ey : ev P (ev Q (hypot x y / 415)) * Real.sin (atan2 y x) - y = (ev P (ev Q (hypot x y / 415)) - hypot x y) * Real.sin (atan2 y x) := by
      rw [sub_mul, polar_y]
    simp only
    rw [ex, ey, hypot_polar']
    exact lt_of_le_of_lt e (by norm_num)

/-- **C74** From the tangent plane to the focal plane and back: less than 0.0105 arc seconds anywhere within 1.63 degrees. -/
theorem C74_round_trip_tan {pf : Polyfit} (hpf : IsPolyfit pf) (x y : ℝ) (h : hypot x y ≤ Real.sin (radians 1.63)) (calls calls' : List Call) :
    ∃ p q, (tan2fp pf x y (after pf calls)).1 = some p ∧ (fp2tan pf p.1 p.2 (after pf calls')).1 = q ∧
      hypot (q.1 - x) (q.2 - y) < radians (0.0105 / 3600) := by
  have hpi := Real.pi_pos
  have hn := hypot_nonneg x y
  have h1 : hypot x y ≤ 1 := h.trans (Real.sin_le_one _)
  set t := arcsind (hypot x y) with ht
  have ht0 : 0 ≤ t := by
    rw [ht]; unfold arcsind degrees
    have := Real.arcsin_nonneg.2 hn
    positivity
  have hr : radians t = Real.arcsin (hypot x y) := by rw [ht]; unfold arcsind; exact radians_degrees _
  have ht1 : t ≤ 1.63 := by
    have h2 : radians t ≤ radians 1.63 := by
      rw [hr, Real.arcsin_le_iff_le_sin ⟨by linarith, h1⟩ ⟨?_, ?_⟩]
      · exact h
      · unfold radians; norm_num; nlinarith
      · unfold radians; norm_num; nlinarith
    unfold radians at h2
    have : 0 < Real.pi / 180 := by positivity
    exact le_of_mul_le_mul_right h2 this
  have hs : sind t = hypot x y := by
    unfold sind; rw [hr]; exact Real.sin_arcsin (by linarith) h1
  obtain ⟨p0, p1⟩ := P_range t ht0 ht1
  obtain ⟨a1, a2⟩ := arg_lt x y
  refine ⟨_, _, tan2fp_val hpf x y calls h1, fp2tan_val hpf _ _ calls', ?_⟩
  simp only
  rw [← ht, hypot_polar', abs_of_pos p0, atan2_polar p0 a1 a2]
  set u := ev Q (ev P t / 415) with hu
  have e := QP t ht0 ht1
  have ex : sind u * Real.cos (atan2 y x) - x = (sind u - sind t) * Real.cos (atan2 y x) := by
    rw [sub_mul, hs, polar_x]
  have ey : sind u * Real.sin (atan2 y x) - y = (sind u - sind t) * Real.sin (atan2 y x) := by
    rw [sub_mul, hs, polar_y]
  rw [ex, ey, hypot_polar']
  have hl : |sind u - sind t| ≤ |radians u - radians t| := by
    unfold sind
    exact Real.abs_sin_sub_sin_le _ _
  refine lt_of_le_of_lt hl ?_
  have : radians u - radians t = (u - t) * (Real.pi / 180) := by unfold radians; ring
  rw [this, abs_mul, abs_of_pos (by positivity : 0 < Real.pi / 180)]
  unfold radians
  apply mul_lt_mul_of_pos_right _ (by positivity)
  exact lt_of_le_of_lt e (by norm_num)

/-- Rotation of the plane. -/
noncomputable def rot (a : ℝ) (p : ℝ × ℝ) : ℝ × ℝ := (p.1 * Real.cos a - p.2 * Real.sin a, p.1 * Real.sin a + p.2 * Real.cos a)

theorem hypot_rot (a x y : ℝ) : hypot (rot a (x, y)).1 (rot a (x, y)).2 = hypot x y := by
  unfold hypot rot
  congr 1
  simp only
  linear_combination (x ^ 2 + y ^ 2) * Real.sin_sq_add_cos_sq a

theorem dir_rot (a x y : ℝ) (h : (x, y) ≠ (0, 0)) (r : ℝ) :
    (r * Real.cos (atan2 (rot a (x, y)).2 (rot a (x, y)).1), r * Real.sin (atan2 (rot a (x, y)).2 (rot a (x, y)).1)) =
      rot a (r * Real.cos (atan2 y x), r * Real.sin (atan2 y x)) := by
  have hp : hypot x y ≠ 0 := by
    unfold hypot
    intro h0
    rw [Real.sqrt_eq_zero (by positivity)] at h0
    exact h (by rw [Prod.mk.injEq]; constructor <;> nlinarith [sq_nonneg x, sq_nonneg y])
  have h1 := polar_x x y
  have h2 := polar_y x y
  have h3 := polar_x (rot a (x, y)).1 (rot a (x, y)).2
  have h4 := polar_y (rot a (x, y)).1 (rot a (x, y)).2
  rw [hypot_rot] at h3 h4
  generalize atan2 (rot a (x, y)).2 (rot a (x, y)).1 = ψ at h3 h4 ⊢
  have e1 : hypot x y * Real.cos ψ = hypot x y * (Real.cos (atan2 y x) * Real.cos a - Real.sin (atan2 y x) * Real.sin a) := by
    rw [h3]; unfold rot; simp only
    linear_combination (-Real.cos a) * h1 + Real.sin a * h2
  have e2 : hypot x y * Real.sin ψ = hypot x y * (Real.cos (atan2 y x) * Real.sin a + Real.sin (atan2 y x) * Real.cos a) := by
    rw [h4]; unfold rot; simp only
    linear_combination (-Real.sin a) * h1 - Real.cos a * h2
  rw [mul_left_cancel₀ hp e1, mul_left_cancel₀ hp e2]
  unfold rot
  ext <;> simp only <;> ring

/-- **C74** Away from the centre both transformations commute with rotations about the centre. -/
theorem C74_rotation {pf : Polyfit} (hpf : IsPolyfit pf) (x y a : ℝ) (h : (x, y) ≠ (0, 0)) (calls calls' : List Call) :
    (tan2fp pf (rot a (x, y)).1 (rot a (x, y)).2 (after pf calls)).1 = (tan2fp pf x y (after pf calls')).1.map (rot a) ∧
    (fp2tan pf (rot a (x, y)).1 (rot a (x, y)).2 (after pf calls)).1 = rot a (fp2tan pf x y (after pf calls')).1 := by
  constructor
  · by_cases h1 : hypot x y ≤ 1
    · rw [tan2fp_val hpf _ _ _ (by rw [hypot_rot]; exact h1), tan2fp_val hpf _ _ _ h1, hypot_rot, dir_rot a x y h]
      rfl
    · unfold tan2fp
      dsimp only
      rw [if_neg (by rw [hypot_rot]; exact h1), if_neg h1]
      rfl
  · rw [fp2tan_val hpf, fp2tan_val hpf, hypot_rot, dir_rot a x y h]

/-- **C74** (finding) The centre of the tangent plane is not mapped to the centre of the focal plane but 0.1 micron along x. -/
theorem C74_origin {pf : Polyfit} (hpf : IsPolyfit pf) (calls : List Call) :
    ∃ c, (tan2fp pf 0 0 (after pf calls)).1 = some (c, 0) ∧ 0.0001018 < c ∧ c < 0.0001019 := by
  have h0 : hypot 0 0 = 0 := by simp [hypot]
  have ha : atan2 0 0 = 0 := by
    unfold atan2
    exact Complex.arg_zero
  refine ⟨ev P 0, ?_, ?_, ?_⟩
  · rw [tan2fp_val hpf _ _ _ (by rw [h0]; norm_num), h0, ha]
    simp [arcsind, degrees]
  · have := P_zero.1; norm_num at this ⊢; exact this
  · have := P_zero.2; norm_num at this ⊢; exact this

/-- **C74** Outside the unit circle of the tangent plane there is no result; inside there is one. -/
theorem C74_nan (pf : Polyfit) (x y : ℝ) (calls : List Call) : (tan2fp pf x y (after pf calls)).1 = none ↔ 1 < hypot x y := by
  unfold tan2fp
  dsimp only
  split_ifs with h
  · simp [h]
  · simpa using h

/-- **C74** Radius and angle are strictly increasing functions of each other: the scale is between 242 and 300 mm per degree. -/
theorem C74_scale {pf : Polyfit} (hpf : IsPolyfit pf) (calls calls' : List Call) :
    (∀ a b, 0 ≤ a → a ≤ b → b ≤ 1.7 →
      242 * (b - a) ≤ (theta2radius pf b (after pf calls)).1 - (theta2radius pf a (after pf calls')).1 ∧
      (theta2radius pf b (after pf calls)).1 - (theta2radius pf a (after pf calls')).1 ≤ 300 * (b - a)) ∧
    (∀ a b, 0 ≤ a → a ≤ b → b ≤ 415 →
      (b - a) / 415 ≤ (radius2theta pf b (after pf calls)).1 - (radius2theta pf a (after pf calls')).1 ∧
      (radius2theta pf b (after pf calls)).1 - (radius2theta pf a (after pf calls')).1 ≤ (b - a) / 207.5) := by
  constructor
  · intro a b h0 hab hb
    rw [theta2radius_val pf (good_after pf calls), theta2radius_val pf (good_after pf calls'), t2r_eq hpf, t2r_eq hpf]
    exact slope P 242 300 1.7 derivP a b h0 hab hb
  · intro a b h0 hab hb
    rw [radius2theta_val pf (good_after pf calls), radius2theta_val pf (good_after pf calls'), r2t_eq hpf, r2t_eq hpf]
    have := slope Q 1 2 1 derivQ (a / 415) (b / 415) (by positivity) (by linarith) (by linarith)
    constructor
    · linarith [this.1]
    · have e : (b - a) / 207.5 = 2 * (b / 415 - a / 415) := by ring
      rw [e]; exact this.2

/-- **C74** At every row of the table within 415 mm the polynomials agree with it to 0.0007 mm and 2.5e-6 degrees (0.009 arc seconds). -/
theorem C74_table {pf : Polyfit} (hpf : IsPolyfit pf) (calls : List Call) (r t : ℤ) (h : (r, t) ∈ table) (hr : r ≤ 415) :
    |(theta2radius pf (t / 10 ^ 9) (after pf calls)).1 - r| < 0.0007 ∧
    |(radius2theta pf r (after pf calls)).1 - t / 10 ^ 9| ≤ 2.5e-6 := by
  have hm : (r, t) ∈ rows := List.mem_filter.2 ⟨h, by simpa using hr⟩
  have hPB : (0 : Int) < PB := by decide +kernel
  have hQB : (0 : Int) < QB := by decide +kernel
  have hPB' : (0 : ℝ) < PB := by exact_mod_cast hPB
  have hQB' : (0 : ℝ) < QB := by exact_mod_cast hQB
  rw [theta2radius_val pf (good_after pf calls), radius2theta_val pf (good_after pf calls), t2r_eq hpf, r2t_eq hpf]
  have e1 := coefs_ev 1000000000 1 PB (by norm_num) (by norm_num) hPB.ne' PA 0 t
  have e2 := coefs_ev 415 1000000000 QB (by norm_num) (by norm_num) hQB.ne' QA 0 r
  rw [← evZ_pol] at e1 e2
  have t1 := P_table (r, t) hm
  have t2 := Q_table (r, t) hm
  have t1' : |((evZ PA t : Int) : ℝ) - r * PB| * 100000 ≤ 69 * PB := by exact_mod_cast t1
  have t2' : |((evZ QA r : Int) : ℝ) - t * QB| * 400000 ≤ QB * 1000000000 := by exact_mod_cast t2
  constructor
  · have : ev P ((t : ℝ) / 10 ^ 9) - r = (((evZ PA t : Int) : ℝ) - r * PB) / PB := by
      unfold P
      rw [show (10 : ℝ) ^ 9 = ((1000000000 : Int) : ℝ) by norm_num, e1]
      push_cast
      field_simp
    rw [this, abs_div, abs_of_pos hPB', div_lt_iff₀ hPB']
    norm_num
    linarith
  · have : ev Q ((r : ℝ) / 415) - t / 10 ^ 9 = (((evZ QA r : Int) : ℝ) - t * QB) / (QB * 10 ^ 9) := by
      unfold Q
      rw [show (415 : ℝ) = ((415 : Int) : ℝ) by norm_num, e2]
      push_cast
      field_simp
      ring
    rw [this, abs_div, abs_of_pos (by positivity : (0 : ℝ) < QB * 10 ^ 9), div_le_iff₀ (by positivity)]
    norm_num
    linarith

/-- **C74** Earlier calls have no influence on any result. -/
theorem C74_history (pf : Polyfit) (calls : List Call) (x y : ℝ) :
    (tan2fp pf x y (after pf calls)).1 = (tan2fp pf x y Cache.empty).1 ∧ (fp2tan pf x y (after pf calls)).1 = (fp2tan pf x y Cache.empty).1 ∧
    (radius2theta pf x (after pf calls)).1 = (radius2theta pf x Cache.empty).1 ∧
    (theta2radius pf x (after pf calls)).1 = (theta2radius pf x Cache.empty).1 := by
  rcases good_after pf calls with h | h <;> rw [h] <;> exact ⟨rfl, rfl, rfl, rfl⟩

/-! ### Such a `polyfit` exists -/

open Verif.Props.TurbPoly in
theorem polyfit_exists : ∃ pf, IsPolyfit pf := by
  obtain ⟨lst, hlst⟩ := lstsq_exists
  let row (d : ℕ) (x : ℝ) : List ℝ := (List.range (d + 1)).map fun i => x ^ (d - i)
  refine ⟨fun x y d => lst (d + 1) (x.map (row d)) y, ?_⟩
  intro x y d hxy
  obtain ⟨h1, h2, -⟩ := hlst (d + 1) (x.map (row d)) y (by simp [row]) (by simpa using hxy.symm)
  have key : ∀ c : List ℝ, c.length = d + 1 → ssq (x.map (row d)) y c = residuals x y c := by
    intro c hc
    have hd : ∀ a, Verif.Model.TurbPoly.dot (row d a) c = polyAt c a := by
      intro a
      unfold polyAt
      rw [dot_fin (by simp [row]) hc, hc, Finset.sum_range]
      apply Finset.sum_congr rfl
      intro i _
      have : (List.range (d + 1))[(i : ℕ)]? = some (i : ℕ) := by
        rw [List.getElem?_range]; exact i.2
      simp [row, List.getD_eq_getElem?_getD, this, mul_comm]
    unfold ssq residuals
    rw [List.zipWith_map_left, List.map_zip_eq_zipWith]
    simp only [hd]
    rfl
  refine ⟨h1, fun c hc => ?_⟩
  rw [← key _ h1, ← key c hc]
  exact h2 c hc

/-- A case of the round trips: the edge of the field. -/
example : ∃ pf, IsPolyfit pf ∧ hypot 0 415 ≤ 415 ∧ hypot 0 (Real.sin (radians 1.63)) ≤ Real.sin (radians 1.63) := by
  obtain ⟨pf, h⟩ := polyfit_exists
  refine ⟨pf, h, ?_, ?_⟩
  · unfold hypot
    rw [show (0 : ℝ) ^ 2 + 415 ^ 2 = 415 ^ 2 by norm_num, Real.sqrt_sq (by norm_num)]
  · have : 0 ≤ Real.sin (radians 1.63) := by
      have hpi := Real.pi_pos
      apply Real.sin_nonneg_of_nonneg_of_le_pi <;> unfold radians <;> norm_num <;> nlinarith
    unfold hypot
    rw [show (0 : ℝ) ^ 2 + Real.sin (radians 1.63) ^ 2 = Real.sin (radians 1.63) ^ 2 by ring, Real.sqrt_sq this]

end Verif.Props.Echo22
