import Verif.Lemmas.Echo22Cert
import Verif.Lemmas.Trig
import Verif.Model.Echo22
import Mathlib.LinearAlgebra.Vandermonde

/-!
Least squares with polynomials: uniqueness, and the radial polynomials of `echo22.py`.
-/

namespace Verif.Lemmas.Echo22
open Verif.Lemmas.Poly Verif.Model.Echo22 Verif.Py

/-- Polynomial with coefficients `e`, degree below `n`. -/
def pol (n : ℕ) (e : ℕ → ℝ) (x : ℝ) : ℝ := ∑ j ∈ Finset.range n, e j * x ^ j

def sq (n : ℕ) (e : ℕ → ℝ) (l : List (ℝ × ℝ)) : ℝ := (l.map fun p => (pol n e p.1 - p.2) ^ 2).sum

theorem pol_sub (n : ℕ) (e c : ℕ → ℝ) (x : ℝ) : pol n (fun j => e j - c j) x = pol n e x - pol n c x := by
  unfold pol
  rw [← Finset.sum_sub_distrib]
  exact Finset.sum_congr rfl fun j _ => by ring

theorem sq_split (n : ℕ) (e c : ℕ → ℝ) (l : List (ℝ × ℝ)) (h : ∀ i < n, (l.map fun p => (pol n c p.1 - p.2) * p.1 ^ i).sum = 0) :
    sq n e l = sq n c l + (l.map fun p => (pol n e p.1 - pol n c p.1) ^ 2).sum := by
  have key : ∀ d : ℕ → ℝ, (l.map fun p => (pol n c p.1 - p.2) * pol n d p.1).sum = 0 := by
    intro d
    have : (l.map fun p => (pol n c p.1 - p.2) * pol n d p.1).sum =
        ∑ i ∈ Finset.range n, d i * (l.map fun p => (pol n c p.1 - p.2) * p.1 ^ i).sum := by
      clear h
      induction l with
      | nil => simp
      | cons a l ih =>
        simp only [List.map_cons, List.sum_cons, mul_add, Finset.sum_add_distrib, ih]
        congr 1
        generalize pol n c a.1 - a.2 = w
        rw [pol, Finset.mul_sum]
        exact Finset.sum_congr rfl fun j _ => by ring
    rw [this]
    apply Finset.sum_eq_zero
    intro i hi
    rw [h i (Finset.mem_range.1 hi), mul_zero]
  have h2 := key fun j => e j - c j
  have : sq n e l = sq n c l + (l.map fun p => (pol n e p.1 - pol n c p.1) ^ 2).sum +
      2 * (l.map fun p => (pol n c p.1 - p.2) * pol n (fun j => e j - c j) p.1).sum := by
    unfold sq
    clear h key h2
    induction l with
    | nil => simp
    | cons a l ih =>
      simp only [List.map_cons, List.sum_cons, ih, pol_sub]
      ring
  rw [this, h2]
  ring

theorem sum_sq_zero {α : Type} (f : α → ℝ) : ∀ l : List α, (l.map fun p => f p ^ 2).sum ≤ 0 → ∀ p ∈ l, f p = 0 := by
  have hn : ∀ l : List α, 0 ≤ (l.map fun p => f p ^ 2).sum := by
    intro l
    induction l with
    | nil => simp
    | cons a l ih => rw [List.map_cons, List.sum_cons]; positivity
  intro l
  induction l with
  | nil => simp
  | cons a l ih =>
    intro h p hp
    rw [List.map_cons, List.sum_cons] at h
    have h1 := hn l
    have h2 := sq_nonneg (f a)
    rcases List.mem_cons.1 hp with rfl | hp
    · nlinarith
    · exact ih (by linarith) p hp

/-- The least-squares polynomial through at least `n` different points is unique. -/
theorem ls_unique (n : ℕ) (e c : ℕ → ℝ) (l : List (ℝ × ℝ)) (h : ∀ i < n, (l.map fun p => (pol n c p.1 - p.2) * p.1 ^ i).sum = 0)
    (hmin : sq n e l ≤ sq n c l) (xs : Fin n → ℝ) (hx : Function.Injective xs) (hxl : ∀ i, ∃ p ∈ l, p.1 = xs i) (x : ℝ) :
    pol n e x = pol n c x := by
  have h0 : ∀ p ∈ l, pol n e p.1 - pol n c p.1 = 0 := by
    apply sum_sq_zero
    have := sq_split n e c l h
    linarith
  have hz : (fun i : Fin n => e i - c i) = 0 := by
    apply Matrix.eq_zero_of_forall_index_sum_pow_mul_eq_zero hx
    intro j
    obtain ⟨p, hp, hpx⟩ := hxl j
    have := h0 p hp
    rw [← pol_sub, hpx, pol, Finset.sum_range] at this
    rw [← this]
    exact Finset.sum_congr rfl fun i _ => by ring
  have : pol n e x - pol n c x = 0 := by
    rw [← pol_sub, pol]
    apply Finset.sum_eq_zero
    intro i hi
    have := congrFun hz ⟨i, Finset.mem_range.1 hi⟩
    simp only [Pi.zero_apply] at this
    rw [this, zero_mul]
  linarith

theorem ev_pol (p : List ℚ) (x : ℝ) : ev p x = pol p.length (fun j => ((p.getD j 0 : ℚ) : ℝ)) x := by
  induction p with
  | nil => simp [ev, pol]
  | cons a p ih =>
    rw [ev, ih, pol, pol, List.length_cons, Finset.sum_range_succ', Finset.mul_sum]
    simp only [List.getD_cons_succ, List.getD_cons_zero, pow_zero, mul_one]
    rw [add_comm]
    congr 1
    exact Finset.sum_congr rfl fun j _ => by ring

theorem evZ_pol (A : List Int) (x : Int) : ((evZ A x : Int) : ℝ) = evI A x := by
  induction A with
  | nil => simp [evZ, evI]
  | cons a A ih => simp only [evZ, evI]; push_cast; rw [ih]

/-- Residuals of the certified polynomial. -/
theorem coefs_ev (a b B : Int) (ha : a ≠ 0) (hb : b ≠ 0) (hB : B ≠ 0) : ∀ (A : List Int) (i : ℕ) (X : ℝ),
    ev (coefs a b B A i) (X / a) = a ^ i * evI A X / (B * b) := by
  have ha' : (a : ℝ) ≠ 0 := by exact_mod_cast ha
  have hb' : (b : ℝ) ≠ 0 := by exact_mod_cast hb
  have hB' : (B : ℝ) ≠ 0 := by exact_mod_cast hB
  intro A
  induction A with
  | nil => intro i X; simp [coefs, ev, evI]
  | cons c A ih =>
    intro i X
    rw [coefs, ev, ih, evI]
    push_cast
    field_simp
    ring

theorem coefs_length (a b B : Int) : ∀ (A : List Int) (i : ℕ), (coefs a b B A i).length = A.length := by
  intro A
  induction A with
  | nil => intro i; rfl
  | cons c A ih => intro i; simp [coefs, ih]

theorem cast_sum (l : List Int) : ((l.sum : Int) : ℝ) = (l.map fun z : Int => (z : ℝ)).sum := by
  induction l with
  | nil => simp
  | cons a l ih => simp [ih]

/-- The normal equations in integers give those of the certified polynomial. -/
theorem normal (a b B : Int) (ha : a ≠ 0) (hb : b ≠ 0) (hB : B ≠ 0) (A : List Int) (l : List (Int × Int)) (i : ℕ)
    (h : moment A B l i = 0) :
    ((l.map fun r => ((r.1 : ℝ) / a, (r.2 : ℝ) / b)).map fun p => (ev (coefs a b B A 0) p.1 - p.2) * p.1 ^ i).sum = 0 := by
  have ha' : (a : ℝ) ≠ 0 := by exact_mod_cast ha
  have hb' : (b : ℝ) ≠ 0 := by exact_mod_cast hb
  have hB' : (B : ℝ) ≠ 0 := by exact_mod_cast hB
  have e : ((moment A B l i : Int) : ℝ) / (B * b * a ^ i) =
      ((l.map fun r => ((r.1 : ℝ) / a, (r.2 : ℝ) / b)).map fun p => (ev (coefs a b B A 0) p.1 - p.2) * p.1 ^ i).sum := by
    unfold moment
    rw [cast_sum, List.map_map, List.map_map]
    clear h
    induction l with
    | nil => simp
    | cons r l ih =>
      simp only [List.map_cons, List.sum_cons, Function.comp] at ih ⊢
      rw [add_div, ih]
      congr 1
      rw [coefs_ev a b B ha hb hB, ← evZ_pol, div_pow]
      push_cast
      field_simp
  rw [← e, h]
  simp

/-! ### Bounds -/

def evQ : List ℚ → ℚ → ℚ
  | [], _ => 0
  | a :: p, x => a + x * evQ p x

theorem ev_rat (p : List ℚ) (x : ℚ) : ev p (x : ℝ) = ((evQ p x : ℚ) : ℝ) := by
  induction p with
  | nil => simp [ev, evQ]
  | cons a p ih => simp only [ev, evQ, ih]; push_cast; ring

theorem P0 : 1018 / 10000000 < evQ P 0 ∧ evQ P 0 < 1019 / 10000000 := by decide +kernel
theorem Q0 : 18 / 10000000 < evQ Q 0 ∧ evQ Q 0 < 19 / 10000000 := by decide +kernel
theorem Q1 : evQ Q 1 < 17 / 10 := by decide +kernel
theorem P163 : evQ P (163 / 100) < 415 := by decide +kernel

theorem cert (p : List ℚ) (z : List Int) (k : ℕ) (D : Int) (hD : 0 < D)
    (he : (z ++ List.replicate k 0).map (fun m : Int => (m : ℚ)) = p.map (· * (D : ℚ))) (x : ℝ) : ev p x = evI z x / D := by
  have := ev_evI (D : ℚ) (by exact_mod_cast hD.ne') p _ he x
  rw [evI_zeros] at this
  rw [this]
  push_cast
  rfl

theorem derivP (t : ℝ) (h0 : 0 ≤ t) (h1 : t ≤ 1.7) : 242 ≤ ev (deriv P) t ∧ ev (deriv P) t ≤ 300 := by
  have hD : (0 : Int) < PDD := by decide +kernel
  have hD' : (0 : ℝ) < PDD := by exact_mod_cast hD
  have hc := checkCells_sound (by norm_num) (by norm_num) PD_bound t h0 (by push_cast; linarith)
  rw [cert _ _ _ _ hD PD_eq]
  push_cast at hc
  constructor
  · rw [le_div_iff₀ hD']; linarith
  · rw [div_le_iff₀ hD']; linarith

theorem derivQ (t : ℝ) (h0 : 0 ≤ t) (h1 : t ≤ 1) : 1 ≤ ev (deriv Q) t ∧ ev (deriv Q) t ≤ 2 := by
  have hD : (0 : Int) < QDD := by decide +kernel
  have hD' : (0 : ℝ) < QDD := by exact_mod_cast hD
  have hc := checkCells_sound (by norm_num) (by norm_num) QD_bound t h0 (by push_cast; linarith)
  rw [cert _ _ _ _ hD QD_eq]
  push_cast at hc
  constructor
  · rw [le_div_iff₀ hD']; linarith
  · rw [div_le_iff₀ hD']; linarith

/-- Composition angle(radius), radius(angle). -/
theorem PQ (t : ℝ) (h0 : 0 ≤ t) (h1 : t ≤ 1) : |ev P (ev Q t) - 415 * t| ≤ 69 / 100000 := by
  have e : ev K t = ev P (ev Q t) - 415 * t := by
    rw [K, ev_add, ev_comp]; simp only [ev]; push_cast; ring
  have hD : (0 : Int) < KD := by decide +kernel
  have hD' : (0 : ℝ) < KD := by exact_mod_cast hD
  have hc := checkCells_sound (by norm_num) (by norm_num) K_bound t h0 (by push_cast; linarith)
  have hb : (((KD * 69 / 100000 : Int)) : ℝ) ≤ KD * (69 / 100000) := by
    have h : (KD * 69 / 100000) * 100000 ≤ KD * 69 := Int.ediv_mul_le _ (by norm_num)
    have h' : (((KD * 69 / 100000 : Int)) : ℝ) * 100000 ≤ KD * 69 := by exact_mod_cast h
    linarith
  rw [← e, cert _ _ _ _ hD K_eq, abs_le]
  rw [Int.cast_neg] at hc
  constructor
  · rw [le_div_iff₀ hD']; linarith
  · rw [div_le_iff₀ hD']; linarith

/-- Mean value theorem. -/
theorem slope (p : List ℚ) (lo hi m : ℝ) (hp : ∀ t, 0 ≤ t → t ≤ m → lo ≤ ev (deriv p) t ∧ ev (deriv p) t ≤ hi) (a b : ℝ) (h0 : 0 ≤ a)
    (hab : a ≤ b) (hb : b ≤ m) : lo * (b - a) ≤ ev p b - ev p a ∧ ev p b - ev p a ≤ hi * (b - a) := by
  rcases eq_or_lt_of_le hab with h | h
  · subst h; simp
  · obtain ⟨c, hc, e⟩ := exists_hasDerivAt_eq_slope (ev p) (ev (deriv p)) h
      (fun x _ => (ev_deriv p x).continuousAt.continuousWithinAt) (fun x _ => ev_deriv p x)
    rw [Set.mem_Ioo] at hc
    have hh := hp c (by linarith) (by linarith)
    rw [eq_div_iff (by linarith)] at e
    have hpos : 0 < b - a := by linarith
    constructor
    · nlinarith
    · nlinarith

theorem P_zero : (1018 : ℝ) / 10000000 < ev P 0 ∧ ev P 0 < 1019 / 10000000 := by
  have h := ev_rat P 0
  rw [Rat.cast_zero] at h
  rw [h]
  constructor
  · have := (Rat.cast_lt (K := ℝ)).2 P0.1; push_cast at this; exact this
  · have := (Rat.cast_lt (K := ℝ)).2 P0.2; push_cast at this; exact this

theorem Q_zero : (18 : ℝ) / 10000000 < ev Q 0 ∧ ev Q 0 < 19 / 10000000 := by
  have h := ev_rat Q 0
  rw [Rat.cast_zero] at h
  rw [h]
  constructor
  · have := (Rat.cast_lt (K := ℝ)).2 Q0.1; push_cast at this; exact this
  · have := (Rat.cast_lt (K := ℝ)).2 Q0.2; push_cast at this; exact this

theorem Q_range (t : ℝ) (h0 : 0 ≤ t) (h1 : t ≤ 1) : 0 < ev Q t ∧ ev Q t ≤ 1.7 := by
  have a := slope Q 1 2 1 derivQ 0 t le_rfl h0 h1
  have b := slope Q 1 2 1 derivQ t 1 h0 h1 le_rfl
  have c := Q_zero
  have d : ev Q 1 < 1.7 := by
    have h := ev_rat Q 1
    rw [Rat.cast_one] at h
    rw [h]
    have := (Rat.cast_lt (K := ℝ)).2 Q1; push_cast at this; norm_num at this ⊢; exact this
  constructor <;> linarith [a.1, b.1, c.1]

theorem P_range (t : ℝ) (h0 : 0 ≤ t) (h1 : t ≤ 1.63) : 0 < ev P t ∧ ev P t ≤ 415 := by
  have a := slope P 242 300 1.7 derivP 0 t le_rfl h0 (by linarith)
  have b := slope P 242 300 1.7 derivP t 1.63 h0 h1 (by norm_num)
  have c := P_zero
  have d : ev P 1.63 < 415 := by
    have h := ev_rat P (163 / 100)
    have e : (((163 / 100 : ℚ)) : ℝ) = 1.63 := by norm_num
    rw [e] at h
    rw [h]
    have := (Rat.cast_lt (K := ℝ)).2 P163; push_cast at this; exact this
  constructor <;> linarith [a.1, b.1, c.1]

/-- Composition radius(angle), angle(radius). -/
theorem QP (t : ℝ) (h0 : 0 ≤ t) (h1 : t ≤ 1.63) : |ev Q (ev P t / 415) - t| ≤ 29 / 10000000 := by
  obtain ⟨p0, p1⟩ := P_range t h0 h1
  have r0 : 0 ≤ ev P t / 415 := by positivity
  have r1 : ev P t / 415 ≤ 1 := by rw [div_le_one (by norm_num)]; exact p1
  have h := PQ _ r0 r1
  obtain ⟨q0, q1⟩ := Q_range _ r0 r1
  rw [mul_div_cancel₀ _ (by norm_num)] at h
  rw [abs_le] at h ⊢
  rcases le_total (ev Q (ev P t / 415)) t with hle | hle
  · have := slope P 242 300 1.7 derivP _ t q0.le hle (by linarith)
    constructor <;> linarith [this.1]
  · have := slope P 242 300 1.7 derivP t _ h0 hle q1
    constructor <;> linarith [this.1]

end Verif.Lemmas.Echo22
