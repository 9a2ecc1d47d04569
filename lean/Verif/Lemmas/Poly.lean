import Verif.Model.Xy2qs
import Mathlib.Tactic.Linarith
import Mathlib.Tactic.Ring
import Mathlib.Analysis.Calculus.Deriv.Pow
import Mathlib.Analysis.Calculus.Deriv.Mul
import Mathlib.Analysis.Calculus.Deriv.Add
import Mathlib.Analysis.Calculus.MeanValue
import Mathlib.Analysis.Calculus.Deriv.MeanValue

/-!
Exact polynomial arithmetic over ℚ (lowest power first), with certified bounds.
-/

namespace Verif.Lemmas.Poly
open Verif.Model.Xy2qs

noncomputable def ev : List ℚ → ℝ → ℝ
  | [], _ => 0
  | a :: p, x => a + x * ev p x

def add : List ℚ → List ℚ → List ℚ
  | [], q => q
  | p, [] => p
  | a :: p, b :: q => (a + b) :: add p q

def smul (c : ℚ) (p : List ℚ) : List ℚ := p.map (c * ·)

def mul : List ℚ → List ℚ → List ℚ
  | [], _ => []
  | a :: p, q => add (smul a q) (0 :: mul p q)

def comp : List ℚ → List ℚ → List ℚ
  | [], _ => []
  | a :: p, q => add [a] (mul q (comp p q))

def deriv : List ℚ → List ℚ
  | [] => []
  | _ :: p => add p (0 :: deriv p)

theorem ev_add (p q : List ℚ) (x : ℝ) : ev (add p q) x = ev p x + ev q x := by
  induction p generalizing q with
  | nil => simp [add, ev]
  | cons a p ih =>
    cases q with
    | nil => simp [add, ev]
    | cons b q => simp only [add, ev, ih]; push_cast; ring

theorem ev_smul (c : ℚ) (p : List ℚ) (x : ℝ) : ev (smul c p) x = c * ev p x := by
  induction p with
  | nil => simp [smul, ev]
  | cons a p ih =>
    unfold smul at ih
    simp only [smul, List.map_cons, ev, ih]; push_cast; ring

theorem ev_mul (p q : List ℚ) (x : ℝ) : ev (mul p q) x = ev p x * ev q x := by
  induction p with
  | nil => simp [mul, ev]
  | cons a p ih => simp only [mul, ev_add, ev_smul, ev, ih]; push_cast; ring

theorem ev_comp (p q : List ℚ) (x : ℝ) : ev (comp p q) x = ev p (ev q x) := by
  induction p with
  | nil => simp [comp, ev]
  | cons a p ih => simp only [comp, ev_add, ev_mul, ev, ih]; ring

theorem ev_deriv (p : List ℚ) (x : ℝ) : HasDerivAt (ev p) (ev (deriv p) x) x := by
  induction p with
  | nil => exact hasDerivAt_const x (0:ℝ)
  | cons a p ih =>
    have h := (hasDerivAt_const x (a:ℝ)).add ((hasDerivAt_id x).mul ih)
    refine h.congr_deriv ?_
    simp only [deriv, ev_add, ev, id]; push_cast; ring

/-! Integer polynomials, for the certified bounds. -/

noncomputable def evI : List Int → ℝ → ℝ
  | [], _ => 0
  | a :: p, x => a + x * evI p x

/-- Identity application that makes the kernel evaluate `z` first. -/
def force {α : Type} (z : Int) (f : Int → α) : α :=
  match z with
  | .ofNat 0 => f 0
  | .ofNat (k + 1) => f (.ofNat (k + 1))
  | .negSucc 0 => f (.negSucc 0)
  | .negSucc (k + 1) => f (.negSucc (k + 1))

theorem force_eq {α : Type} (z : Int) (f : Int → α) : force z f = f z := by
  unfold force; split <;> rfl

/-- `mulLin m c q` is `c + (m + x) q(x)`. -/
def mulLin (m : Int) : Int → List Int → List Int
  | c, [] => [c]
  | c, b :: q => force (m * b + c) fun v => v :: mulLin m b q

/-- `shift m p` is `p(m + x)`. -/
def shift (m : Int) : List Int → List Int
  | [] => []
  | a :: p => mulLin m a (shift m p)

/-- `hom N p` is `N^len(p) * p(x / N)`. -/
def hom (N : Int) : List Int → List Int
  | [] => []
  | a :: p => force (a * N ^ (p.length + 1)) fun v => v :: hom N p

theorem evI_mulLin (m c : Int) (q : List Int) (x : ℝ) :
    evI (mulLin m c q) x = c + (m + x) * evI q x := by
  induction q generalizing c with
  | nil => simp [mulLin, evI]
  | cons b q ih => simp only [mulLin, force_eq, evI, ih]; push_cast; ring

theorem evI_shift (m : Int) (p : List Int) (x : ℝ) : evI (shift m p) x = evI p (m + x) := by
  induction p with
  | nil => simp [shift, evI]
  | cons a p ih => simp only [shift, evI_mulLin, evI, ih]

theorem evI_hom (N : Int) (p : List Int) (t : ℝ) : evI (hom N p) (N * t) = N ^ p.length * evI p t := by
  induction p with
  | nil => simp [hom, evI]
  | cons a p ih => simp only [hom, force_eq, evI, ih, List.length_cons]; push_cast; ring

theorem ev_evI (D : ℚ) (hD : D ≠ 0) : ∀ (p : List ℚ) (z : List Int),
    z.map (fun m : Int => (m : ℚ)) = p.map (· * D) → ∀ x, ev p x = evI z x / D
  | [], [], _, x => by simp [ev, evI]
  | [], _ :: _, h, x => by simp at h
  | _ :: _, [], h, x => by simp at h
  | a :: p, m :: z, h, x => by
    simp only [List.map_cons, List.cons.injEq] at h
    have hD' : (D:ℝ) ≠ 0 := by exact_mod_cast hD
    have h1 : (m:ℝ) = a * D := by exact_mod_cast congrArg (fun q : ℚ => (q:ℝ)) h.1
    simp only [ev, evI, ev_evI D hD p z h.2 x, h1]
    field_simp

theorem evI_zeros (z : List Int) (n : Nat) (x : ℝ) : evI (z ++ List.replicate n 0) x = evI z x := by
  induction z with
  | nil =>
    induction n with
    | zero => rfl
    | succ n ih =>
      rw [List.nil_append] at ih ⊢
      simp only [List.replicate_succ, evI] at ih ⊢; rw [ih]; simp
  | cons a z ih => simp only [List.cons_append, evI, ih]

/-- Sum of absolute values of the coefficients. -/
def l1 : List Int → Int
  | [] => 0
  | a :: p => (a.natAbs : Int) + l1 p

theorem abs_evI_le (p : List Int) (x : ℝ) (hx : |x| ≤ 1) : |evI p x| ≤ l1 p := by
  induction p with
  | nil => simp [evI, l1]
  | cons a p ih =>
    rw [l1, evI]
    have e : (((a.natAbs : Int) + l1 p : Int) : ℝ) = |(a:ℝ)| + l1 p := by
      rw [Int.natCast_natAbs]; push_cast; rfl
    rw [e]
    calc |(a:ℝ) + x * evI p x| ≤ |(a:ℝ)| + |x * evI p x| := abs_add_le _ _
      _ = |(a:ℝ)| + |x| * |evI p x| := by rw [abs_mul]
      _ ≤ |(a:ℝ)| + 1 * |evI p x| := by gcongr
      _ ≤ _ := by rw [one_mul]; gcongr

/-- Bounds of a polynomial on [-1,1]. -/
def lo : List Int → Int
  | [] => 0
  | a :: p => a - l1 p
def hi : List Int → Int
  | [] => 0
  | a :: p => a + l1 p

theorem lo_le (p : List Int) (x : ℝ) (hx : |x| ≤ 1) : (lo p : ℝ) ≤ evI p x ∧ evI p x ≤ hi p := by
  cases p with
  | nil => simp [lo, hi, evI]
  | cons a p =>
    have h := abs_evI_le p x hx
    have h2 : |x * evI p x| ≤ l1 p := by
      rw [abs_mul]
      calc |x| * |evI p x| ≤ 1 * |evI p x| := by gcongr
        _ ≤ _ := by rw [one_mul]; exact h
    rw [abs_le] at h2
    simp only [lo, hi, evI]; push_cast
    constructor <;> linarith

/-- The polynomial lies in [a, b] on each of the cells `[2k/N, (2k+2)/N]`, k < n. -/
def checkCells (p : List Int) (N a b : Int) (n : Nat) : Bool :=
  (List.range n).all fun k =>
    let q := shift (2 * k + 1) (hom N p)
    decide (a * N ^ p.length ≤ lo q) && decide (hi q ≤ b * N ^ p.length)

theorem checkCells_sound {p : List Int} {N a b : Int} {n : Nat} (hn : n ≠ 0) (hw : 0 < N)
    (h : checkCells p N a b n = true) (t : ℝ) (h0 : 0 ≤ t) (h1 : N * t ≤ 2 * n) :
    (a:ℝ) ≤ evI p t ∧ evI p t ≤ b := by
  have hwr : (0:ℝ) < N := by exact_mod_cast hw
  have key : ∃ k : Nat, k < n ∧ (2 * k : ℝ) ≤ N * t ∧ N * t ≤ 2 * (k + 1) ∨ n = 0 := by
    clear hn
    induction n with
    | zero => exact ⟨0, Or.inr rfl⟩
    | succ n ih =>
      by_cases hc : N * t ≤ 2 * n
      · have hh : checkCells p N a b n = true := by
          unfold checkCells at h ⊢
          rw [List.all_eq_true] at h ⊢
          intro k hk
          exact h k (by rw [List.mem_range] at hk ⊢; omega)
        obtain ⟨k, hk⟩ := ih hh hc
        rcases hk with hk | hk
        · exact ⟨k, Or.inl ⟨by omega, hk.2⟩⟩
        · refine ⟨0, Or.inl ⟨by omega, by simpa using mul_nonneg hwr.le h0, ?_⟩⟩
          subst hk
          simp at hc ⊢; linarith
      · exact ⟨n, Or.inl ⟨by omega, (not_le.1 hc).le, by push_cast at h1; exact h1⟩⟩
  obtain ⟨k, hk⟩ := key
  rcases hk with ⟨hk, ha, hb⟩ | hk
  · unfold checkCells at h
    rw [List.all_eq_true] at h
    have hh := h k (List.mem_range.2 hk)
    simp only [Bool.and_eq_true, decide_eq_true_eq] at hh
    have hx : |N * t - (2 * k + 1)| ≤ 1 := by
      rw [abs_le]; constructor <;> linarith
    have hb := lo_le (shift (2 * k + 1) (hom N p)) _ hx
    rw [evI_shift] at hb
    have he : (((2 * k + 1 : Int) : ℝ) + (N * t - (2 * k + 1))) = N * t := by
      push_cast; ring
    rw [he, evI_hom] at hb
    have h3 : ((a * N ^ p.length : Int) : ℝ) ≤ _ := Int.cast_le.2 hh.1
    have h4 : _ ≤ ((b * N ^ p.length : Int) : ℝ) := Int.cast_le.2 hh.2
    push_cast at h3 h4
    have hp : (0:ℝ) < N ^ p.length := by positivity
    constructor
    · have := h3.trans hb.1
      rw [mul_comm] at this
      exact le_of_mul_le_mul_left this hp
    · have := hb.2.trans h4
      rw [mul_comm (b:ℝ)] at this
      exact le_of_mul_le_mul_left this hp
  · exact absurd hk hn

/-- Horner evaluation is polynomial evaluation. -/
theorem polyval_aux (c : List ℚ) (x y : ℝ) :
    c.foldl (fun y (a : ℚ) => y * x + (a : ℝ)) y = ev c.reverse x + y * x ^ c.length := by
  induction c using List.reverseRecOn generalizing y with
  | nil => simp [ev]
  | append_singleton c a ih =>
    rw [List.foldl_append, ih, List.reverse_append, List.length_append]
    simp only [List.foldl_cons, List.foldl_nil, List.reverse_cons, List.reverse_nil,
      List.nil_append, List.cons_append, ev, List.length_cons, List.length_nil]
    ring

theorem polyval_eq (c : List ℚ) (x : ℝ) : polyval c x = ev c.reverse x := by
  unfold polyval; rw [polyval_aux]; simp

end Verif.Lemmas.Poly
