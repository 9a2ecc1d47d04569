import Verif.Model.MoveFlags
import Verif.Props.Bitmask
import Verif.Lemmas.Sort
import Mathlib.Tactic.Linarith
import Mathlib.Tactic.NormNum
import Mathlib.Tactic.FieldSimp
import Mathlib.Tactic.Ring

/-!
# C65: the stuck-motor flag of a positioner
-/

namespace Verif.Props.MoveFlags
open Verif.Py Verif.Model.MoveFlags Verif.Model.Bitmask

/-! ### Specification -/

/-- The measurements, one per row. -/
def rowsOf (t p x y : List ℝ) : List Pt :=
  List.zipWith (fun (a : ℝ × ℝ) (b : ℝ × ℝ) => ⟨a.1, a.2, b.1, b.2⟩) (t.zip p) (x.zip y)

/-- The measurements at one phi value. -/
noncomputable def group (pts : List Pt) (v : ℝ) : List Pt := pts.filter fun q => q.p = v

/-- A phi value at which theta motion shows: not over 160, at least four measurements, theta values at
least 20 degrees apart. -/
def Testable (pts : List Pt) (v : ℝ) : Prop :=
  v ≤ 160 ∧ 4 ≤ (group pts v).length ∧ ∃ a ∈ group pts v, ∃ b ∈ group pts v, a.t + 20 ≤ b.t

/-- Sum of the squared distances of the measured positions from a point. -/
def sumSq (g : List Pt) (cx cy : ℝ) : ℝ := (g.map fun q => (q.x - cx) ^ 2 + (q.y - cy) ^ 2).sum

/-- Mean square distance from the mean position at most 0.1 squared. -/
def Still (g : List Pt) : Prop :=
  sumSq g ((g.map (·.x)).sum / g.length) ((g.map (·.y)).sum / g.length) ≤ 0.1 ^ 2 * g.length

/-! ### Lemmas -/

theorem foldl_max_ge (l : List ℝ) : ∀ a, a ≤ l.foldl max a ∧ ∀ b ∈ l, b ≤ l.foldl max a := by
  induction l with
  | nil => intro a; simp
  | cons c l ih =>
    intro a
    obtain ⟨h1, h2⟩ := ih (max a c)
    refine ⟨le_trans (le_max_left _ _) h1, fun b hb => ?_⟩
    rcases List.mem_cons.1 hb with rfl | hb
    · exact le_trans (le_max_right _ _) h1
    · exact h2 b hb

theorem foldl_max_mem (l : List ℝ) : ∀ a, l.foldl max a = a ∨ l.foldl max a ∈ l := by
  induction l with
  | nil => intro a; simp
  | cons c l ih =>
    intro a
    rw [List.foldl_cons]
    rcases ih (max a c) with h | h
    · rcases max_choice a c with h' | h'
      · left; rw [h, h']
      · right; rw [h, h']; simp
    · right; simp [h]

theorem foldl_min_le (l : List ℝ) : ∀ a, l.foldl min a ≤ a ∧ ∀ b ∈ l, l.foldl min a ≤ b := by
  induction l with
  | nil => intro a; simp
  | cons c l ih =>
    intro a
    obtain ⟨h1, h2⟩ := ih (min a c)
    refine ⟨le_trans h1 (min_le_left _ _), fun b hb => ?_⟩
    rcases List.mem_cons.1 hb with rfl | hb
    · exact le_trans h1 (min_le_right _ _)
    · exact h2 b hb

theorem foldl_min_mem (l : List ℝ) : ∀ a, l.foldl min a = a ∨ l.foldl min a ∈ l := by
  induction l with
  | nil => intro a; simp
  | cons c l ih =>
    intro a
    rw [List.foldl_cons]
    rcases ih (min a c) with h | h
    · rcases min_choice a c with h' | h'
      · left; rw [h, h']
      · right; rw [h, h']; simp
    · right; simp [h]

theorem lmax_spec {l : List ℝ} (h : l ≠ []) : lmax l ∈ l ∧ ∀ b ∈ l, b ≤ lmax l := by
  cases l with
  | nil => exact absurd rfl h
  | cons a l =>
    refine ⟨?_, (foldl_max_ge _ _).2⟩
    rcases foldl_max_mem (a :: l) a with h | h
    · unfold lmax; rw [List.headD_cons, h]; simp
    · exact h

theorem lmin_spec {l : List ℝ} (h : l ≠ []) : lmin l ∈ l ∧ ∀ b ∈ l, lmin l ≤ b := by
  cases l with
  | nil => exact absurd rfl h
  | cons a l =>
    refine ⟨?_, (foldl_min_le _ _).2⟩
    rcases foldl_min_mem (a :: l) a with h | h
    · unfold lmin; rw [List.headD_cons, h]; simp
    · exact h

theorem isTested_iff (pts : List Pt) (v : ℝ) : isTested (group pts v) v = true ↔ Testable pts v := by
  unfold isTested Testable
  generalize group pts v = g
  by_cases h1 : g.length < 4
  · rw [if_pos h1]; simp; intro _ h; omega
  rw [if_neg h1]
  by_cases h2 : v > 160
  · rw [if_pos h2]; simp; intro h; linarith
  rw [if_neg h2]
  have hne : g.map (·.t) ≠ [] := by
    intro h
    have := List.map_eq_nil_iff.1 h
    rw [this] at h1; simp at h1
  obtain ⟨m1, m2⟩ := lmax_spec hne
  obtain ⟨n1, n2⟩ := lmin_spec hne
  by_cases h3 : lmax (g.map (·.t)) - lmin (g.map (·.t)) < 20
  · rw [if_pos h3]
    simp only [Bool.false_eq_true, false_iff]
    rintro ⟨-, -, a, ha, b, hb, hab⟩
    have e1 := m2 b.t (List.mem_map_of_mem hb)
    have e2 := n2 a.t (List.mem_map_of_mem ha)
    linarith
  · rw [if_neg h3]
    simp only [true_iff]
    obtain ⟨b, hb, hb'⟩ := List.mem_map.1 m1
    obtain ⟨a, ha, ha'⟩ := List.mem_map.1 n1
    exact ⟨not_lt.1 h2, by omega, a, ha, b, hb, by rw [ha', hb']; linarith⟩

theorem sum_add (g : List Pt) (f h : Pt → ℝ) : (g.map fun q => f q + h q).sum = (g.map f).sum + (g.map h).sum := by
  induction g with
  | nil => simp
  | cons a l ih => simp only [List.map_cons, List.sum_cons, ih]; ring

theorem var_nonneg (l : List ℝ) : 0 ≤ var l := by
  unfold var mean
  apply div_nonneg _ (by positivity)
  apply List.sum_nonneg
  intro a ha
  obtain ⟨b, _, rfl⟩ := List.mem_map.1 ha
  positivity

theorem rms_le (g : List Pt) (h : g ≠ []) : ¬ rmsXy g > 0.1 ↔ Still g := by
  unfold rmsXy
  rw [Real.sq_sqrt (var_nonneg _), Real.sq_sqrt (var_nonneg _), not_lt, Real.sqrt_le_iff]
  have hl : (0 : ℝ) < g.length := by exact_mod_cast List.length_pos_of_ne_nil h
  unfold Still sumSq
  rw [sum_add]
  have e : var (g.map (·.x)) + var (g.map (·.y)) =
      ((g.map fun q => (q.x - (g.map (·.x)).sum / g.length) ^ 2).sum +
        (g.map fun q => (q.y - (g.map (·.y)).sum / g.length) ^ 2).sum) / g.length := by
    unfold var mean
    simp only [List.map_map, List.length_map, Function.comp_def]
    rw [add_div]
  rw [e, div_le_iff₀ hl]
  constructor
  · intro h; exact h.2
  · intro h; exact ⟨by norm_num, h⟩

theorem fold_step (pts : List Pt) (vs : List ℝ) : ∀ st : Bool × Bool,
    ((vs.foldl (step pts) st).1 = true ↔ st.1 = true ∨ ∃ v ∈ vs, Testable pts v) ∧
    ((vs.foldl (step pts) st).2 = true ↔ st.2 = true ∨ ∃ v ∈ vs, Testable pts v ∧ ¬ Still (group pts v)) := by
  induction vs with
  | nil => intro st; simp
  | cons v vs ih =>
    intro st
    rw [List.foldl_cons]
    obtain ⟨h1, h2⟩ := ih (step pts st v)
    rw [h1, h2]
    have hs : step pts st v = if isTested (group pts v) v then (true, st.2 || decide (rmsXy (group pts v) > 0.1)) else st := rfl
    by_cases ht : isTested (group pts v) v = true
    · have htt := (isTested_iff pts v).1 ht
      have hne : group pts v ≠ [] := by
        intro h; have := htt.2.1; rw [h] at this; simp at this
      have hr := rms_le _ hne
      rw [hs, if_pos ht]
      simp only [Bool.or_eq_true, decide_eq_true_eq, List.mem_cons, exists_eq_or_imp, htt, true_and, true_or, or_true, true_iff]
      rw [← hr, not_not, or_assoc]
    · have htt : ¬ Testable pts v := fun h => ht ((isTested_iff pts v).2 h)
      rw [hs, if_neg ht]
      simp only [List.mem_cons, exists_eq_or_imp, htt, false_and, false_or, and_self]

theorem rows_eq (t p x y : List ℝ) (h : t.length = p.length ∧ p.length = x.length ∧ x.length = y.length) :
    ((List.range t.length).map fun i => Pt.mk (t.getD i 0) (p.getD i 0) (x.getD i 0) (y.getD i 0)) = rowsOf t p x y := by
  obtain ⟨h1, h2, h3⟩ := h
  apply List.ext_getElem?
  intro i
  unfold rowsOf
  rw [List.getElem?_zipWith]
  by_cases hi : i < t.length
  · have hp : i < p.length := by omega
    have hx : i < x.length := by omega
    have hy : i < y.length := by omega
    simp [hi, hp, hx, hy, List.getElem?_zip_eq_some, List.zip]
  · have hz : ((List.range t.length).map fun i => Pt.mk (t.getD i 0) (p.getD i 0) (x.getD i 0) (y.getD i 0))[i]? = none := by
      simp; omega
    rw [hz]
    have : (t.zip p)[i]? = none := by simp; omega
    rw [this]

theorem eval_eq (t p x y : List ℝ) (h : t.length = p.length ∧ p.length = x.length ∧ x.length = y.length) :
    evalMoveFlags true t p x y =
      .ok (if ((pySort id p.dedup).foldl (step (rowsOf t p x y)) (false, false)).1 = true ∧
        ((pySort id p.dedup).foldl (step (rowsOf t p x y)) (false, false)).2 = false then 1 else 0) := by
  unfold evalMoveFlags
  rw [if_neg (not_not.2 h), if_neg (by simp)]
  dsimp only
  rw [rows_eq t p x y h]
  have hb : getBit (init movemaskDefs) (.name "THETA_STUCK".toList) = .ok (mkBit "THETA_STUCK".toList 0) := rfl
  rw [hb]
  dsimp only
  split
  · rfl
  · rfl

theorem mem_values {t p x y : List ℝ} (h : t.length = p.length ∧ p.length = x.length ∧ x.length = y.length) {v : ℝ}
    (ht : Testable (rowsOf t p x y) v) : v ∈ pySort id p.dedup := by
  rw [Lemmas.mem_pySort, List.mem_dedup]
  obtain ⟨-, h4, -⟩ := ht
  have : group (rowsOf t p x y) v ≠ [] := by intro h; rw [h] at h4; simp at h4
  obtain ⟨q, hq⟩ := List.exists_mem_of_ne_nil _ this
  obtain ⟨h5, h6⟩ := List.mem_filter.1 hq
  have h6 : q.p = v := by simpa using h6
  rw [← rows_eq t p x y h] at h5
  obtain ⟨i, hi, rfl⟩ := List.mem_map.1 h5
  rw [List.mem_range] at hi
  have hi' : i < p.length := by omega
  rw [← h6]
  simp only [List.getD_eq_getElem?_getD, List.getElem?_eq_getElem hi', Option.getD_some]
  exact List.getElem_mem hi'

/-! ### Theorems -/

/-- **C65** The flag THETA_STUCK (value 1) is set exactly when theta motion could be tested at some
phi value and at all such values the measured positions scatter by at most 0.1 mm rms; otherwise
the result is 0. -/
theorem C65_flag (t p x y : List ℝ) (h : t.length = p.length ∧ p.length = x.length ∧ x.length = y.length) :
    ∃ f, evalMoveFlags true t p x y = .ok f ∧ (f = 0 ∨ f = 1) ∧
      (f = 1 ↔ (∃ v, Testable (rowsOf t p x y) v) ∧
        ∀ v, Testable (rowsOf t p x y) v → Still (group (rowsOf t p x y) v)) := by
  rw [eval_eq t p x y h]
  obtain ⟨h1, h2⟩ := fold_step (rowsOf t p x y) (pySort id p.dedup) (false, false)
  refine ⟨_, rfl, by split_ifs <;> simp, ?_⟩
  simp only [Bool.false_eq_true, false_or] at h1 h2
  constructor
  · intro hf
    split_ifs at hf with hc
    rw [← Bool.not_eq_true, h1, h2] at hc
    obtain ⟨⟨v, hv, ht⟩, hn⟩ := hc
    refine ⟨⟨v, ht⟩, fun w hw => ?_⟩
    by_contra hs
    exact hn ⟨w, mem_values h hw, hw, hs⟩
  · rintro ⟨⟨v, ht⟩, hs⟩
    rw [if_pos]
    rw [← Bool.not_eq_true, h1, h2]
    refine ⟨⟨v, mem_values h ht, ht⟩, ?_⟩
    rintro ⟨w, -, hw, hw'⟩
    exact hw' (hs w hw)

/-- **C65** Lists of different lengths, or arguments that are no lists, are rejected. -/
theorem C65_rejected (isList : Bool) (t p x y : List ℝ)
    (h : ¬ (t.length = p.length ∧ p.length = x.length ∧ x.length = y.length) ∨ isList = false) :
    evalMoveFlags isList t p x y = .error .assertionError := by
  unfold evalMoveFlags
  by_cases hl : t.length = p.length ∧ p.length = x.length ∧ x.length = y.length
  · rw [if_neg (not_not.2 hl), if_pos (h.resolve_left (not_not.2 hl))]
  · rw [if_pos hl]

theorem sumSq_shift (g : List Pt) (kx ky : ℝ) (h : g ≠ []) :
    sumSq g ((g.map (·.x)).sum / g.length) ((g.map (·.y)).sum / g.length) ≤ sumSq g kx ky := by
  have hl : (0 : ℝ) < g.length := by exact_mod_cast List.length_pos_of_ne_nil h
  have key : ∀ (cx cy : ℝ) (l : List Pt), sumSq l kx ky = sumSq l cx cy + 2 * (cx - kx) * ((l.map (·.x)).sum - l.length * cx) +
      2 * (cy - ky) * ((l.map (·.y)).sum - l.length * cy) + l.length * ((cx - kx) ^ 2 + (cy - ky) ^ 2) := by
    intro cx cy l
    unfold sumSq
    induction l with
    | nil => simp
    | cons a l ih =>
      simp only [List.map_cons, List.sum_cons, List.length_cons, Nat.cast_add, Nat.cast_one, ih]
      ring
  rw [key ((g.map (·.x)).sum / g.length) ((g.map (·.y)).sum / g.length) g]
  have e1 : (g.map (·.x)).sum - g.length * ((g.map (·.x)).sum / g.length) = 0 := by field_simp; ring
  have e2 : (g.map (·.y)).sum - g.length * ((g.map (·.y)).sum / g.length) = 0 := by field_simp; ring
  rw [e1, e2]
  have : 0 ≤ (g.length : ℝ) * (((g.map (·.x)).sum / g.length - kx) ^ 2 + ((g.map (·.y)).sum / g.length - ky) ^ 2) := by positivity
  linarith

/-- **C65** A positioner that can be tested and whose measured positions all lie within 0.1 mm of one
of them (per phi value) is reported stuck: measurement noise below 0.1 mm cannot hide a dead motor. -/
theorem C65_stuck (t p x y : List ℝ) (h : t.length = p.length ∧ p.length = x.length ∧ x.length = y.length)
    (ht : ∃ v, Testable (rowsOf t p x y) v)
    (hs : ∀ v, Testable (rowsOf t p x y) v → ∃ k ∈ group (rowsOf t p x y) v, ∀ q ∈ group (rowsOf t p x y) v,
      (q.x - k.x) ^ 2 + (q.y - k.y) ^ 2 ≤ 0.1 ^ 2) : evalMoveFlags true t p x y = .ok 1 := by
  obtain ⟨f, hf, -, hi⟩ := C65_flag t p x y h
  rw [hf]
  congr 1
  apply hi.2
  refine ⟨ht, fun v hv => ?_⟩
  obtain ⟨k, hk, hq⟩ := hs v hv
  have hne : group (rowsOf t p x y) v ≠ [] := List.ne_nil_of_mem hk
  refine (sumSq_shift _ k.x k.y hne).trans ?_
  unfold sumSq
  generalize group (rowsOf t p x y) v = g at hq
  clear hk hne
  induction g with
  | nil => simp
  | cons a l ih =>
    simp only [List.map_cons, List.sum_cons, List.length_cons, Nat.cast_add, Nat.cast_one]
    have h1 := hq a (by simp)
    have h2 := ih fun q hql => hq q (by simp [hql])
    linarith

theorem two_le_sum {g : List Pt} (f : Pt → ℝ) (hf : ∀ q, 0 ≤ f q) {a b : Pt} (ha : a ∈ g) (hb : b ∈ g) (hab : a ≠ b) :
    f a + f b ≤ (g.map f).sum := by
  have hnn : ∀ l : List Pt, 0 ≤ (l.map f).sum := fun l => List.sum_nonneg (by
    intro v hv; obtain ⟨q, _, rfl⟩ := List.mem_map.1 hv; exact hf q)
  have one : ∀ (l : List Pt) (c : Pt), c ∈ l → f c ≤ (l.map f).sum := by
    intro l c hc
    induction l with
    | nil => cases hc
    | cons d l ih =>
      simp only [List.map_cons, List.sum_cons]
      rcases List.mem_cons.1 hc with rfl | hc
      · linarith [hnn l]
      · linarith [ih hc, hf d]
  induction g with
  | nil => cases ha
  | cons c l ih =>
    simp only [List.map_cons, List.sum_cons]
    rcases List.mem_cons.1 ha with rfl | ha' <;> rcases List.mem_cons.1 hb with rfl | hb'
    · exact absurd rfl hab
    · linarith [one l b hb']
    · linarith [one l a ha']
    · linarith [ih ha' hb', hf c]

/-- **C65** A positioner with two measured positions far enough apart at a testable phi value
(squared distance over 0.02 mm² times the number of measurements there) is not reported stuck. -/
theorem C65_moving (t p x y : List ℝ) (h : t.length = p.length ∧ p.length = x.length ∧ x.length = y.length) (v : ℝ)
    (ht : Testable (rowsOf t p x y) v) (a b : Pt) (ha : a ∈ group (rowsOf t p x y) v) (hb : b ∈ group (rowsOf t p x y) v)
    (hab : 2 * 0.1 ^ 2 * (group (rowsOf t p x y) v).length < (a.x - b.x) ^ 2 + (a.y - b.y) ^ 2) :
    evalMoveFlags true t p x y = .ok 0 := by
  obtain ⟨f, hf, h01, hi⟩ := C65_flag t p x y h
  rw [hf]
  rcases h01 with rfl | rfl
  · rfl
  · exfalso
    have hs := (hi.1 rfl).2 v ht
    unfold Still sumSq at hs
    have hne : a ≠ b := by
      rintro rfl
      have : (0 : ℝ) ≤ 2 * 0.1 ^ 2 * (group (rowsOf t p x y) v).length := by positivity
      simp at hab
      linarith
    generalize (List.map (fun x => x.x) (group (rowsOf t p x y) v)).sum / ↑(group (rowsOf t p x y) v).length = cx at hs
    generalize (List.map (fun x => x.y) (group (rowsOf t p x y) v)).sum / ↑(group (rowsOf t p x y) v).length = cy at hs
    have h2 := two_le_sum (fun q => (q.x - cx) ^ 2 + (q.y - cy) ^ 2) (fun q => by positivity) ha hb hne
    nlinarith [sq_nonneg (a.x - cx + (b.x - cx)), sq_nonneg (a.y - cy + (b.y - cy))]

/-- **C65 disagreement**: PHI_STUCK is never reported, whatever the data: the names of the result are
none or THETA_STUCK. -/
theorem C65_phi_never (t p x y : List ℝ) (f : ℕ) (hf : evalMoveFlags true t p x y = .ok f) :
    names (init movemaskDefs) f = [] ∨ names (init movemaskDefs) f = ["THETA_STUCK".toList] := by
  by_cases h : t.length = p.length ∧ p.length = x.length ∧ x.length = y.length
  · obtain ⟨g, hg, h01, -⟩ := C65_flag t p x y h
    rw [hf] at hg
    cases hg
    rcases h01 with rfl | rfl
    · left; unfold names; rw [namesLoop]; simp
    · right
      unfold names
      rw [namesLoop, dif_pos (by simp), namesLoop, dif_neg (by norm_num)]
      decide +kernel
  · rw [C65_rejected true t p x y (Or.inl h)] at hf; cases hf

/-- **C28** The positioner flag table: every flag has a description, names and bits are distinct, the
bits are 0..29 without 13, so every value has a name for each of its bits except bit 13. -/
theorem C28_posflags : posflagsTable = .ok posflagsDefs ∧ (posflagsDefs.map Prod.fst).Nodup ∧
    (∀ b, b ∈ posflagsDefs.map Prod.snd ↔ b < 30 ∧ b ≠ 13) ∧ (posflagsDefs.map Prod.snd).Pairwise (· < ·) ∧
    (movemaskDefs.map Prod.fst).Nodup ∧ (∀ b, b ∈ movemaskDefs.map Prod.snd ↔ b < 5) := by
  refine ⟨?_, ?_, ?_, ?_, ?_, ?_⟩
  · decide +kernel
  · decide +kernel
  · intro b
    have : posflagsDefs.map Prod.snd = [0, 1, 2, 3, 4, 5, 6, 7, 8, 9, 10, 11, 12, 14, 15, 16, 17, 18, 19, 20, 21, 22, 23, 24, 25, 26, 27, 28, 29] := rfl
    rw [this]
    simp only [List.mem_cons, List.not_mem_nil, or_false]
    omega
  · decide +kernel
  · decide +kernel
  · intro b
    have : movemaskDefs.map Prod.snd = [0, 1, 2, 3, 4] := rfl
    rw [this]
    simp only [List.mem_cons, List.not_mem_nil, or_false]
    omega

/-! ### Examples -/

theorem demo_group : group (rowsOf [0, 30, 60, 90] [150, 150, 150, 150] [1, 1, 1, 1] [2, 2, 2, 2]) 150 =
    [⟨0, 150, 1, 2⟩, ⟨30, 150, 1, 2⟩, ⟨60, 150, 1, 2⟩, ⟨90, 150, 1, 2⟩] := by
  simp [group, rowsOf]

theorem demo_testable : Testable (rowsOf [0, 30, 60, 90] [150, 150, 150, 150] [1, 1, 1, 1] [2, 2, 2, 2]) 150 := by
  unfold Testable
  rw [demo_group]
  exact ⟨by norm_num, by simp, ⟨0, 150, 1, 2⟩, by simp, ⟨30, 150, 1, 2⟩, by simp, by norm_num⟩

/-- A dead theta motor. -/
example : evalMoveFlags true [0, 30, 60, 90] [150, 150, 150, 150] [1, 1, 1, 1] [2, 2, 2, 2] = .ok 1 := by
  refine C65_stuck _ _ _ _ (by simp) ⟨150, demo_testable⟩ fun v hv => ?_
  have hv' : v = 150 := by
    have := mem_values (by simp) hv
    rw [Lemmas.mem_pySort, List.mem_dedup] at this
    simpa using this
  subst hv'
  rw [demo_group]
  refine ⟨⟨0, 150, 1, 2⟩, by simp, fun q hq => ?_⟩
  simp only [List.mem_cons, List.not_mem_nil, or_false] at hq
  rcases hq with rfl | rfl | rfl | rfl <;> norm_num

/-- A working one. -/
example : evalMoveFlags true [0, 30, 60, 90] [150, 150, 150, 150] [1, 2, 3, 4] [2, 2, 2, 2] = .ok 0 := by
  have hg : group (rowsOf [0, 30, 60, 90] [150, 150, 150, 150] [1, 2, 3, 4] [2, 2, 2, 2]) 150 =
      [⟨0, 150, 1, 2⟩, ⟨30, 150, 2, 2⟩, ⟨60, 150, 3, 2⟩, ⟨90, 150, 4, 2⟩] := by
    simp [group, rowsOf]
  refine C65_moving _ _ _ _ (by simp) 150 ?_ ⟨0, 150, 1, 2⟩ ⟨90, 150, 4, 2⟩ ?_ ?_ ?_
  · unfold Testable
    rw [hg]
    exact ⟨by norm_num, by simp, ⟨0, 150, 1, 2⟩, by simp, ⟨30, 150, 2, 2⟩, by simp, by norm_num⟩
  · rw [hg]; simp
  · rw [hg]; simp
  · rw [hg]; norm_num

example : ([0] : List ℝ).length ≠ ([] : List ℝ).length := by simp

end Verif.Props.MoveFlags
