import Verif.Model.EmpCovar
import Mathlib.Algebra.BigOperators.Group.List.Basic
import Mathlib.Algebra.BigOperators.Ring.List
import Mathlib.Algebra.Order.BigOperators.Group.List
import Mathlib.Tactic

/-!
# C99: empirical covariance of the displacements
-/

namespace Verif.Spec.EmpCovar
open Verif.Model.EmpCovar

open Classical in
/-- Sum of `w a b` over all ordered pairs of rows (a row with itself included) that are at least `lo` and less than
`hi` apart. -/
noncomputable def pairSum (data : List Datum) (w : Datum → Datum → ℝ) (lo hi : ℝ) : ℝ :=
  (data.map fun a => (data.map fun b =>
    if lo ≤ Real.sqrt ((a.x - b.x) ^ 2 + (a.y - b.y) ^ 2) ∧ Real.sqrt ((a.x - b.x) ^ 2 + (a.y - b.y) ^ 2) < hi
      then w a b else 0).sum).sum

/-- Number of these pairs. -/
noncomputable def pairCount (data : List Datum) (lo hi : ℝ) : ℝ := pairSum data (fun _ _ => 1) lo hi

/-- Mean over these pairs, 0 if there are none. -/
noncomputable def pairMean (data : List Datum) (w : Datum → Datum → ℝ) (lo hi : ℝ) : ℝ :=
  pairSum data w lo hi / pairCount data lo hi

end Verif.Spec.EmpCovar

namespace Verif.Lemmas.EmpCovar
open Verif.Py Verif.Model.EmpCovar Verif.Spec.EmpCovar

theorem npMin_ok {l : List ℝ} {m : ℝ} (h : npMin l = .ok m) : m ∈ l ∧ ∀ x ∈ l, m ≤ x := by
  cases l with
  | nil => cases h
  | cons a l =>
    have := Except.ok.inj h
    subst this
    clear h
    induction l generalizing a with
    | nil => simp
    | cons b l ih =>
      obtain ⟨h1, h2⟩ := ih (min a b)
      simp only [List.foldl_cons]
      constructor
      · rcases List.mem_cons.1 h1 with h | h
        · rw [h]; rcases min_choice a b with h' | h' <;> simp [h']
        · simp [h]
      · intro x hx
        have h3 := h2 (min a b) (by simp)
        rcases List.mem_cons.1 hx with h | h
        · rw [h]; exact h3.trans (min_le_left _ _)
        · rcases List.mem_cons.1 h with h | h
          · rw [h]; exact h3.trans (min_le_right _ _)
          · exact h2 x (by simp [h])

theorem npMax_ok {l : List ℝ} {m : ℝ} (h : npMax l = .ok m) : m ∈ l ∧ ∀ x ∈ l, x ≤ m := by
  cases l with
  | nil => cases h
  | cons a l =>
    have := Except.ok.inj h
    subst this
    clear h
    induction l generalizing a with
    | nil => simp
    | cons b l ih =>
      obtain ⟨h1, h2⟩ := ih (max a b)
      simp only [List.foldl_cons]
      constructor
      · rcases List.mem_cons.1 h1 with h | h
        · rw [h]; rcases max_choice a b with h' | h' <;> simp [h']
        · simp [h]
      · intro x hx
        have h3 := h2 (max a b) (by simp)
        rcases List.mem_cons.1 hx with h | h
        · rw [h]; exact (le_max_left _ _).trans h3
        · rcases List.mem_cons.1 h with h | h
          · rw [h]; exact (le_max_right _ _).trans h3
          · exact h2 x (by simp [h])

/-- Position found by the search. -/
theorem lt_searchRight {e : List ℝ} (he : e.Pairwise (· ≤ ·)) (v : ℝ) (k : ℕ) :
    k < searchRight e v ↔ ∃ h : k < e.length, e[k] ≤ v := by
  induction e generalizing k with
  | nil => simp [searchRight]
  | cons a e ih =>
    obtain ⟨h1, h2⟩ := List.pairwise_cons.1 he
    by_cases ha : a ≤ v
    · have : searchRight (a :: e) v = searchRight e v + 1 := by simp [searchRight, ha]
      rw [this]
      cases k with
      | zero => simp [ha]
      | succ k => rw [Nat.succ_lt_succ_iff, ih h2]; simp
    · have : searchRight (a :: e) v = 0 := by
        unfold searchRight
        rw [List.length_eq_zero_iff, List.filter_eq_nil_iff]
        intro x hx
        rcases List.mem_cons.1 hx with h | h
        · simpa [h] using ha
        · have := h1 x h
          simp only [decide_eq_true_eq, not_le]
          linarith [not_le.1 ha]
      rw [this]
      constructor
      · intro h; omega
      · rintro ⟨h, h'⟩
        exfalso
        apply ha
        cases k with
        | zero => simpa using h'
        | succ k => exact (h1 _ (List.getElem_mem _)).trans h'

theorem searchRight_eq {e : List ℝ} (he : e.Pairwise (· ≤ ·)) (v : ℝ) (k : ℕ) (hk : k + 1 < e.length) :
    searchRight e v = k + 1 ↔ e[k] ≤ v ∧ v < e[k + 1] := by
  have h1 := lt_searchRight he v k
  have h2 := lt_searchRight he v (k + 1)
  constructor
  · intro h
    obtain ⟨_, a⟩ := h1.1 (by omega)
    refine ⟨a, ?_⟩
    by_contra hc
    have := h2.2 ⟨hk, not_lt.1 hc⟩
    omega
  · rintro ⟨a, b⟩
    have := h1.2 ⟨by omega, a⟩
    have h3 : ¬ k + 1 < searchRight e v := fun hc => by
      obtain ⟨_, h⟩ := h2.1 hc
      linarith
    omega

theorem searchRight_le (e : List ℝ) (v : ℝ) : searchRight e v ≤ e.length := List.length_filter_le _ _

theorem binned_sum (e : List ℝ) (w : Datum × Datum → ℝ) (ps : List (Datum × Datum)) (k : ℕ) :
    (((binned e w ps).filter fun p => decide (p.1 = k)).map Prod.snd).sum
      = (ps.map fun p => if searchRight e (pdist p) = k + 1 then w p else 0).sum := by
  induction ps with
  | nil => simp [binned]
  | cons p ps ih =>
    unfold binned at ih ⊢
    rw [List.filterMap_cons, List.map_cons, List.sum_cons, ← ih]
    rcases h : searchRight e (pdist p) with _ | j
    · simp
    · by_cases hj : j = k
      · subst hj; simp
      · simp [hj]

theorem sum_pairs (data : List Datum) (f : Datum × Datum → ℝ) :
    ((pairs data).map f).sum = (data.map fun a => (data.map fun b => f (a, b)).sum).sum := by
  unfold pairs
  generalize data = d2 at *
  suffices H : ∀ d1 : List Datum, ((d1.flatMap fun a => d2.map fun b => (a, b)).map f).sum
      = (d1.map fun a => (d2.map fun b => f (a, b)).sum).sum from H d2
  intro d1
  induction d1 with
  | nil => simp
  | cons a d1 ih =>
    rw [List.flatMap_cons, List.map_append, List.sum_append, ih, List.map_cons, List.sum_cons, List.map_map]
    rfl

theorem pdist_symm (a b : Datum) : pdist (a, b) = Real.sqrt ((a.x - b.x) ^ 2 + (a.y - b.y) ^ 2) := by
  unfold pdist
  congr 1
  ring

theorem bin_sum {e : List ℝ} (he : e.Pairwise (· ≤ ·)) (w : Datum → Datum → ℝ) (data : List Datum) (k : ℕ)
    (hk : k + 1 < e.length) :
    (((binned e (fun p => w p.1 p.2) (pairs data)).filter fun p => decide (p.1 = k)).map Prod.snd).sum
      = pairSum data w e[k] e[k + 1] := by
  rw [binned_sum, sum_pairs]
  unfold pairSum
  simp only [searchRight_eq he _ k hk, pdist_symm]

/-- One more than the largest bin in use. -/
noncomputable def used (e : List ℝ) (ps : List (Datum × Datum)) : ℕ :=
  ps.foldr (fun p m => max (searchRight e (pdist p)) m) 0

theorem binned_used (e : List ℝ) (w : Datum × Datum → ℝ) (ps : List (Datum × Datum)) :
    (binned e w ps).foldr (fun p m => max (p.1 + 1) m) 0 = used e ps := by
  induction ps with
  | nil => rfl
  | cons p ps ih =>
    unfold binned used at *
    rw [List.filterMap_cons, List.foldr_cons, ← ih]
    rcases h : searchRight e (pdist p) with _ | j <;> simp

theorem used_le_iff (e : List ℝ) (ps : List (Datum × Datum)) (n : ℕ) :
    used e ps ≤ n ↔ ∀ p ∈ ps, searchRight e (pdist p) ≤ n := by
  induction ps with
  | nil => simp [used]
  | cons p ps ih =>
    unfold used at *
    rw [List.foldr_cons, max_le_iff, ih]
    simp

theorem mem_pairs (data : List Datum) (a b : Datum) : (a, b) ∈ pairs data ↔ a ∈ data ∧ b ∈ data := by
  simp [pairs]

theorem bincount_length (e : List ℝ) (w : Datum × Datum → ℝ) (ps : List (Datum × Datum)) (n : ℕ) :
    (bincount (binned e w ps) n).length = max n (used e ps) := by
  simp [bincount, binned_used]

theorem pairCount_nonneg (data : List Datum) (lo hi : ℝ) : 0 ≤ pairCount data lo hi := by
  unfold pairCount pairSum
  refine List.sum_nonneg ?_
  simp only [List.mem_map, forall_exists_index, and_imp, forall_apply_eq_imp_iff₂]
  intro a _
  refine List.sum_nonneg ?_
  simp only [List.mem_map, forall_exists_index, and_imp, forall_apply_eq_imp_iff₂]
  intro b _
  split_ifs <;> norm_num

/-- No pairs, no sum. -/
theorem pairSum_zero {data : List Datum} {lo hi : ℝ} (w : Datum → Datum → ℝ) (h : pairCount data lo hi = 0) :
    pairSum data w lo hi = 0 := by
  have key : ∀ a ∈ data, ∀ b ∈ data, ¬ (lo ≤ Real.sqrt ((a.x - b.x) ^ 2 + (a.y - b.y) ^ 2) ∧
      Real.sqrt ((a.x - b.x) ^ 2 + (a.y - b.y) ^ 2) < hi) := by
    intro a ha b hb hc
    unfold pairCount pairSum at h
    have hin : ∀ a : Datum, 0 ≤ (data.map fun b => if lo ≤ Real.sqrt ((a.x - b.x) ^ 2 + (a.y - b.y) ^ 2) ∧
        Real.sqrt ((a.x - b.x) ^ 2 + (a.y - b.y) ^ 2) < hi then (1 : ℝ) else 0).sum := by
      intro a
      refine List.sum_nonneg ?_
      simp only [List.mem_map, forall_exists_index, and_imp, forall_apply_eq_imp_iff₂]
      intro b _
      split_ifs <;> norm_num
    have h1 := List.single_le_sum (l := data.map fun a => (data.map fun b => if lo ≤ Real.sqrt ((a.x - b.x) ^ 2 + (a.y - b.y) ^ 2) ∧
        Real.sqrt ((a.x - b.x) ^ 2 + (a.y - b.y) ^ 2) < hi then (1 : ℝ) else 0).sum)
      (by simp only [List.mem_map, forall_exists_index, and_imp, forall_apply_eq_imp_iff₂]; exact fun a _ => hin a)
      _ (List.mem_map.2 ⟨a, ha, rfl⟩)
    rw [h] at h1
    have h2 := List.single_le_sum (l := data.map fun b => if lo ≤ Real.sqrt ((a.x - b.x) ^ 2 + (a.y - b.y) ^ 2) ∧
        Real.sqrt ((a.x - b.x) ^ 2 + (a.y - b.y) ^ 2) < hi then (1 : ℝ) else 0)
      (by simp only [List.mem_map, forall_exists_index, and_imp, forall_apply_eq_imp_iff₂]; intro b _; split_ifs <;> norm_num)
      _ (List.mem_map.2 ⟨b, hb, rfl⟩)
    rw [if_pos hc] at h2
    linarith
  unfold pairSum
  refine List.sum_eq_zero ?_
  simp only [List.mem_map, forall_exists_index, and_imp, forall_apply_eq_imp_iff₂]
  intro a ha
  refine List.sum_eq_zero ?_
  simp only [List.mem_map, forall_exists_index, and_imp, forall_apply_eq_imp_iff₂]
  intro b hb
  rw [if_neg (key a ha b hb)]

theorem entry {e : List ℝ} (he : e.Pairwise (· ≤ ·)) (w : Datum → Datum → ℝ) (data : List Datum) (k : ℕ)
    (hk : k + 1 < e.length) :
    (List.zipWith (· / ·) (bincount (binned e (fun p => w p.1 p.2) (pairs data)) (e.length - 1))
      (counts e (pairs data) (e.length - 1)))[k]? = some (pairMean data w e[k] e[k + 1]) := by
  have hlen : k < max (e.length - 1) (used e (pairs data)) := lt_max_of_lt_left (by omega)
  rw [List.getElem?_zipWith]
  unfold counts
  rw [List.getElem?_map]
  have h1 : ∀ w : Datum → Datum → ℝ, (bincount (binned e (fun p => w p.1 p.2) (pairs data)) (e.length - 1))[k]?
      = some (pairSum data w e[k] e[k + 1]) := by
    intro w
    unfold bincount
    rw [binned_used, List.getElem?_map, List.getElem?_range hlen, Option.map_some, bin_sum he w data k hk]
  rw [h1, h1 fun _ _ => 1]
  simp only [Option.map_some, Option.some.injEq]
  unfold pairMean pairCount
  split_ifs with h
  · have := pairSum_zero w h
    rw [this]; simp
  · simp

/-- A run that ends normally. -/
theorem finish_ok {data : List Datum} {e : List ℝ} {r : List ℝ × List ℝ × List ℝ}
    (h : finish (pairs data) e = .ok r) :
    e ≠ [] ∧ r.1 = middles e ∧
    r.2.1 = List.zipWith (· / ·) (bincount (binned e (fun p => p.1.dx * p.2.dx) (pairs data)) (e.length - 1))
      (counts e (pairs data) (e.length - 1)) ∧
    r.2.2 = List.zipWith (· / ·) (bincount (binned e (fun p => p.1.dy * p.2.dy) (pairs data)) (e.length - 1))
      (counts e (pairs data) (e.length - 1)) := by
  unfold finish at h
  split_ifs at h with h0
  have := Except.ok.inj h
  subst this
  refine ⟨fun hc => h0 (by simp [hc]), rfl, ?_, ?_⟩ <;> simp only [mul_comm]

theorem linspace_length (a b : ℝ) (n : ℕ) : (linspace a b n).length = n + 1 := by simp [linspace]

theorem linspace_get (a b : ℝ) (n k : ℕ) (h : k < (linspace a b n).length) :
    (linspace a b n)[k] = a + k * ((b - a) / n) := by simp [linspace]

theorem linspace_sorted {a b : ℝ} (hab : a ≤ b) (n : ℕ) : (linspace a b n).Pairwise (· ≤ ·) := by
  unfold linspace
  rw [List.pairwise_map]
  refine List.Pairwise.imp (R := (· < ·)) ?_ List.pairwise_lt_range
  intro i j hij
  have : (i : ℝ) ≤ j := by exact_mod_cast hij.le
  have h0 : 0 ≤ (b - a) / n := div_nonneg (by linarith) (by positivity)
  nlinarith

theorem pdist_self (a : Datum) : pdist (a, a) = 0 := by simp [pdist]

theorem pdist_nonneg (p : Datum × Datum) : 0 ≤ pdist p := Real.sqrt_nonneg _

end Verif.Lemmas.EmpCovar

namespace Verif.Props
open Verif.Py Verif.Model.EmpCovar Verif.Spec.EmpCovar Verif.Lemmas.EmpCovar

/-- **C99**. With given increasing edges, the middle, and the mean products of the displacements in x and in y, of every
bin: over all ordered pairs of rows at least the lower and less than the upper edge apart, each row with itself
included; 0 for a bin without pairs. -/
theorem C99_bins (data : List Datum) (bins : ℤ) (e : List ℝ) (he : e.Pairwise (· ≤ ·))
    (r : List ℝ × List ℝ × List ℝ) (h : empiricalCovariance data bins (some e) = .ok r) (k : ℕ) (hk : k + 1 < e.length) :
    r.1[k]? = some ((e[k] + e[k + 1]) / 2) ∧
    r.2.1[k]? = some (pairMean data (fun a b => a.dx * b.dx) e[k] e[k + 1]) ∧
    r.2.2[k]? = some (pairMean data (fun a b => a.dy * b.dy) e[k] e[k + 1]) := by
  obtain ⟨_, h1, h2, h3⟩ := finish_ok (show finish (pairs data) e = .ok r from h)
  refine ⟨?_, ?_, ?_⟩
  · rw [h1]
    unfold middles
    rw [List.getElem?_zipWith, List.getElem?_dropLast, List.getElem?_tail]
    rw [if_pos (by omega), List.getElem?_eq_getElem (show k < e.length by omega), List.getElem?_eq_getElem hk]
  · rw [h2]; exact entry he (fun a b => a.dx * b.dx) data k hk
  · rw [h3]; exact entry he (fun a b => a.dy * b.dy) data k hk

/-- Default edges. -/
theorem Lemmas.EmpCovar.default_ok {data : List Datum} {bins : ℤ} {r : List ℝ × List ℝ × List ℝ}
    (h : empiricalCovariance data bins none = .ok r) :
    0 ≤ bins ∧ data ≠ [] ∧ ∃ hi : ℝ, (∃ a ∈ data, ∃ b ∈ data, hi = pdist (a, b)) ∧ (∀ a ∈ data, ∀ b ∈ data, pdist (a, b) ≤ hi) ∧
      finish (pairs data) (linspace 0 (hi + 1 / 10) bins.toNat) = .ok r := by
  unfold empiricalCovariance at h
  dsimp only at h
  rcases hlo : npMin ((pairs data).map pdist) with _ | lo
  · rw [hlo] at h; cases h
  rcases hhi : npMax ((pairs data).map pdist) with _ | hi
  · rw [hlo, hhi] at h; cases h
  rw [hlo, hhi] at h
  change (if bins < 0 then _ else _) = _ at h
  split_ifs at h with hb
  obtain ⟨a1, a2⟩ := npMin_ok hlo
  obtain ⟨b1, b2⟩ := npMax_ok hhi
  obtain ⟨p, hp, rfl⟩ := List.mem_map.1 a1
  obtain ⟨q, hq, rfl⟩ := List.mem_map.1 b1
  obtain ⟨pa, pb⟩ := (mem_pairs data p.1 p.2).1 hp
  obtain ⟨qa, qb⟩ := (mem_pairs data q.1 q.2).1 hq
  have h0 : pdist p = 0 := by
    have := a2 (pdist (p.1, p.1)) (List.mem_map.2 ⟨_, (mem_pairs data _ _).2 ⟨pa, pa⟩, rfl⟩)
    rw [pdist_self] at this
    linarith [pdist_nonneg p]
  rw [h0] at h
  exact ⟨by omega, List.ne_nil_of_mem pa, pdist q, ⟨q.1, qa, q.2, qb, rfl⟩,
    fun a ha b hb => b2 _ (List.mem_map.2 ⟨_, (mem_pairs data _ _).2 ⟨ha, hb⟩, rfl⟩), h⟩

/-- **C99**. Without edges, `bins` bins of equal width from 0 to 0.1 beyond the largest distance. -/
theorem C99_default (data : List Datum) (bins : ℤ) (r : List ℝ × List ℝ × List ℝ)
    (h : empiricalCovariance data bins none = .ok r) (hb : bins ≠ 0) :
    ∃ hi : ℝ, (∃ a ∈ data, ∃ b ∈ data, hi = Real.sqrt ((a.x - b.x) ^ 2 + (a.y - b.y) ^ 2)) ∧
      (∀ a ∈ data, ∀ b ∈ data, Real.sqrt ((a.x - b.x) ^ 2 + (a.y - b.y) ^ 2) ≤ hi) ∧
      (r.1.length : ℤ) = bins ∧ (r.2.1.length : ℤ) = bins ∧ (r.2.2.length : ℤ) = bins ∧
      ∀ k : ℕ, k < bins →
        r.1[k]? = some ((k + 1 / 2) * ((hi + 1 / 10) / bins)) ∧
        r.2.1[k]? = some (pairMean data (fun a b => a.dx * b.dx) (k * ((hi + 1 / 10) / bins)) ((k + 1) * ((hi + 1 / 10) / bins))) ∧
        r.2.2[k]? = some (pairMean data (fun a b => a.dy * b.dy) (k * ((hi + 1 / 10) / bins)) ((k + 1) * ((hi + 1 / 10) / bins))) := by
  obtain ⟨hb0, hne, hi, ⟨a, ha, b, hb', hhi⟩, hmax, hf⟩ := Lemmas.EmpCovar.default_ok h
  obtain ⟨n, rfl⟩ := Int.eq_ofNat_of_zero_le hb0
  have hn : n ≠ 0 := by rintro rfl; exact hb rfl
  have hn' : (n : ℝ) ≠ 0 := by exact_mod_cast hn
  have h0 : 0 ≤ hi := by rw [hhi]; exact pdist_nonneg _
  have hs := linspace_sorted (a := 0) (b := hi + 1 / 10) (by linarith) n
  have hl := linspace_length 0 (hi + 1 / 10) n
  simp only [Int.toNat_natCast] at hf
  obtain ⟨_, h1, h2, h3⟩ := finish_ok hf
  have hused : used (linspace 0 (hi + 1 / 10) n) (pairs data) ≤ n := by
    rw [used_le_iff]
    rintro ⟨a, b⟩ hp
    obtain ⟨pa, pb⟩ := (mem_pairs data a b).1 hp
    have := (lt_searchRight hs (pdist (a, b)) n).not
    rw [not_lt] at this
    rw [this]
    rintro ⟨hlt, hle⟩
    rw [linspace_get] at hle
    have h5 := hmax a pa b pb
    rw [sub_zero, zero_add, mul_div_cancel₀ _ hn'] at hle
    linarith
  refine ⟨hi, ⟨a, ha, b, hb', by rw [hhi, pdist_symm]⟩, fun a ha b hb => by rw [← pdist_symm]; exact hmax a ha b hb, ?_, ?_, ?_, ?_⟩
  · rw [h1]; unfold middles; rw [List.length_zipWith, List.length_dropLast, List.length_tail, hl]; simp
  · rw [h2, List.length_zipWith]; unfold counts; rw [List.length_map, bincount_length, bincount_length, hl]
    simp only [Nat.add_sub_cancel, max_eq_left hused, min_self]
  · rw [h3, List.length_zipWith]; unfold counts; rw [List.length_map, bincount_length, bincount_length, hl]
    simp only [Nat.add_sub_cancel, max_eq_left hused, min_self]
  · intro k hk
    have hk' : k < n := by exact_mod_cast hk
    have hk1 : k + 1 < (linspace 0 (hi + 1 / 10) n).length := by omega
    obtain ⟨c1, c2, c3⟩ := C99_bins data n (linspace 0 (hi + 1 / 10) n) hs r (show finish _ _ = _ from hf) k hk1
    rw [linspace_get, linspace_get] at c1 c2 c3
    push_cast at c1 c2 c3 ⊢
    simp only [sub_zero, zero_add] at c1 c2 c3
    refine ⟨?_, c2, c3⟩
    rw [c1]
    congr 1
    ring

/-- **C99**. Exceptions: `ValueError` for an empty table or a negative number of bins without edges, and for an empty
list of edges; nothing else. -/
theorem C99_errors (data : List Datum) (bins : ℤ) (edges : Option (List ℝ)) (err : PyErr) :
    empiricalCovariance data bins edges = .error err ↔
      err = .valueError ∧ (edges = some [] ∨ (edges = none ∧ (data = [] ∨ bins < 0))) := by
  have hfin : ∀ e : List ℝ, finish (pairs data) e = .error err ↔ err = .valueError ∧ e = [] := by
    intro e
    unfold finish
    split_ifs with h0
    · rw [List.length_eq_zero_iff] at h0
      simp [h0, eq_comm]
    · rw [List.length_eq_zero_iff] at h0
      simp [h0]
  cases edges with
  | some e => simp only [empiricalCovariance]; rw [hfin]; simp
  | none =>
    unfold empiricalCovariance
    dsimp only
    cases data with
    | nil => simp [pairs, npMin, bind, Except.bind, eq_comm]
    | cons a l =>
      obtain ⟨t, ht⟩ : ∃ t, pairs (a :: l) = (a, a) :: t := ⟨_, rfl⟩
      rw [ht] at hfin ⊢
      simp only [List.map_cons, npMin, npMax, bind, Except.bind]
      split_ifs with hb
      · simp [hb, eq_comm]
      · rw [hfin]
        have : ∀ x y : ℝ, linspace x y bins.toNat ≠ [] := by
          intro x y hc
          have := congrArg List.length hc
          rw [linspace_length] at this
          simp at this
        simp [hb, this]

/-- **C99** (finding). With given edges the three arrays have the same length exactly if all pairs of rows are less than
the last edge apart; otherwise the two with the mean products are one longer than the one with the middles. -/
theorem C99_lengths (data : List Datum) (bins : ℤ) (e : List ℝ) (he : e.Pairwise (· ≤ ·)) (hne : e ≠ [])
    (r : List ℝ × List ℝ × List ℝ) (h : empiricalCovariance data bins (some e) = .ok r) :
    r.1.length = e.length - 1 ∧ r.2.1.length = r.2.2.length ∧
    ((∀ a ∈ data, ∀ b ∈ data, Real.sqrt ((a.x - b.x) ^ 2 + (a.y - b.y) ^ 2) < e.getLast hne) → r.2.1.length = e.length - 1) ∧
    ((∃ a ∈ data, ∃ b ∈ data, e.getLast hne ≤ Real.sqrt ((a.x - b.x) ^ 2 + (a.y - b.y) ^ 2)) → r.2.1.length = e.length) := by
  obtain ⟨_, h1, h2, h3⟩ := finish_ok (show finish (pairs data) e = .ok r from h)
  have hpos : 0 < e.length := List.length_pos_iff.2 hne
  have hlast : ∀ a b : Datum, searchRight e (pdist (a, b)) ≤ e.length - 1 ↔
      Real.sqrt ((a.x - b.x) ^ 2 + (a.y - b.y) ^ 2) < e.getLast hne := by
    intro a b
    have := (lt_searchRight he (pdist (a, b)) (e.length - 1)).not
    rw [not_lt] at this
    rw [this, List.getLast_eq_getElem, ← pdist_symm]
    constructor
    · intro hc; by_contra hc2; exact hc ⟨by omega, not_lt.1 hc2⟩
    · rintro hlt ⟨_, hle⟩; linarith
  have hlen : ∀ w : Datum × Datum → ℝ, (List.zipWith (· / ·) (bincount (binned e w (pairs data)) (e.length - 1))
      (counts e (pairs data) (e.length - 1))).length = max (e.length - 1) (used e (pairs data)) := by
    intro w
    rw [List.length_zipWith]; unfold counts; rw [List.length_map, bincount_length, bincount_length, min_self]
  rw [h2, h3, hlen, hlen]
  refine ⟨by rw [h1]; simp [middles], rfl, ?_, ?_⟩
  · intro hall
    refine max_eq_left ((used_le_iff _ _ _).2 ?_)
    rintro ⟨a, b⟩ hp
    obtain ⟨pa, pb⟩ := (mem_pairs data a b).1 hp
    exact (hlast a b).2 (hall a pa b pb)
  · rintro ⟨a, ha, b, hb, hab⟩
    have hnot : ¬ used e (pairs data) ≤ e.length - 1 := by
      rw [used_le_iff]
      intro hc
      have := (hlast a b).1 (hc (a, b) ((mem_pairs _ _ _).2 ⟨ha, hb⟩))
      linarith
    have hle : used e (pairs data) ≤ e.length := (used_le_iff _ _ _).2 fun p _ => searchRight_le _ _
    omega

/-- Sum over a list of rows commutes with a finite sum over bins. -/
theorem Lemmas.EmpCovar.sum_range_map {α : Type*} (l : List α) (f : ℕ → α → ℝ) (n : ℕ) :
    ∑ k ∈ Finset.range n, (l.map (f k)).sum = (l.map fun a => ∑ k ∈ Finset.range n, f k a).sum := by
  induction l with
  | nil => simp
  | cons a l ih => simp [Finset.sum_add_distrib, ih]

/-- **C99**. Without edges every ordered pair is in exactly one bin: the mean products times the numbers of pairs add up
to the square of the sum of the displacements, and the numbers of pairs to the square of the number of rows. -/
theorem C99_total (data : List Datum) (bins : ℤ) (r : List ℝ × List ℝ × List ℝ)
    (h : empiricalCovariance data bins none = .ok r) (hb : bins ≠ 0) :
    ∃ w : ℝ, 0 < w ∧
      ∑ k ∈ Finset.range bins.toNat, pairCount data (k * w) ((k + 1) * w) = (data.length : ℝ) ^ 2 ∧
      ∑ k ∈ Finset.range bins.toNat, r.2.1.getD k 0 * pairCount data (k * w) ((k + 1) * w) = (data.map Datum.dx).sum ^ 2 ∧
      ∑ k ∈ Finset.range bins.toNat, r.2.2.getD k 0 * pairCount data (k * w) ((k + 1) * w) = (data.map Datum.dy).sum ^ 2 := by
  obtain ⟨hb0, hne, _⟩ := Lemmas.EmpCovar.default_ok h
  obtain ⟨hi, ⟨a, ha, b, hb', hhi⟩, hmax, _, _, _, hk⟩ := C99_default data bins r h hb
  obtain ⟨n, rfl⟩ := Int.eq_ofNat_of_zero_le hb0
  have hn : n ≠ 0 := by rintro rfl; exact hb rfl
  have hn' : (0 : ℝ) < n := by exact_mod_cast Nat.pos_of_ne_zero hn
  have h0 : 0 ≤ hi := by rw [hhi]; exact Real.sqrt_nonneg _
  have hw : 0 < (hi + 1 / 10) / n := by positivity
  simp only [Int.toNat_natCast, Int.cast_natCast, Nat.cast_lt] at hk ⊢
  set w := (hi + 1 / 10) / (n : ℝ) with hwdef
  have hnw : n * w = hi + 1 / 10 := by rw [hwdef]; field_simp
  -- exactly one bin
  have hone : ∀ d : ℝ, 0 ≤ d → d ≤ hi → ∀ c : ℝ,
      ∑ k ∈ Finset.range n, (if k * w ≤ d ∧ d < (k + 1) * w then c else 0) = c := by
    intro d hd0 hd c
    have hq : 0 ≤ d / w := by positivity
    have hfl : ⌊d / w⌋₊ < n := by
      rw [Nat.floor_lt hq, div_lt_iff₀ hw]; linarith
    rw [Finset.sum_eq_single ⌊d / w⌋₊]
    · rw [if_pos]
      constructor
      · have := Nat.floor_le hq
        rwa [le_div_iff₀ hw] at this
      · have := Nat.lt_floor_add_one (d / w)
        rwa [div_lt_iff₀ hw] at this
    · intro k _ hne
      rw [if_neg]
      rintro ⟨c1, c2⟩
      apply hne
      symm
      rw [Nat.floor_eq_iff hq]
      exact ⟨by rwa [le_div_iff₀ hw], by rwa [div_lt_iff₀ hw]⟩
    · intro hc
      exact absurd (Finset.mem_range.2 hfl) hc
  have htot : ∀ v : Datum → Datum → ℝ, ∑ k ∈ Finset.range n, pairSum data v (k * w) ((k + 1) * w)
      = (data.map fun a => (data.map fun b => v a b).sum).sum := by
    intro v
    unfold pairSum
    rw [Lemmas.EmpCovar.sum_range_map]
    congr 1
    refine List.map_congr_left fun a ha => ?_
    rw [Lemmas.EmpCovar.sum_range_map]
    congr 1
    refine List.map_congr_left fun b hb => ?_
    exact hone _ (Real.sqrt_nonneg _) (hmax a ha b hb) _
  have hprod : ∀ f : Datum → ℝ, (data.map fun a => (data.map fun b => f a * f b).sum).sum = (data.map f).sum ^ 2 := by
    intro f
    simp only [List.sum_map_mul_left, List.sum_map_mul_right]
    ring
  have hmean : ∀ (v : Datum → Datum → ℝ) (lo hi : ℝ), pairMean data v lo hi * pairCount data lo hi = pairSum data v lo hi := by
    intro v lo hi
    unfold pairMean
    by_cases hc : pairCount data lo hi = 0
    · rw [hc, pairSum_zero v hc]; simp
    · field_simp
  refine ⟨w, hw, ?_, ?_, ?_⟩
  · unfold pairCount
    rw [htot]
    simp
    ring
  · rw [← hprod, ← htot]
    refine Finset.sum_congr rfl fun k hk' => ?_
    rw [List.getD_eq_getElem?_getD, (hk k (Finset.mem_range.1 hk')).2.1, Option.getD_some, hmean]
  · rw [← hprod, ← htot]
    refine Finset.sum_congr rfl fun k hk' => ?_
    rw [List.getD_eq_getElem?_getD, (hk k (Finset.mem_range.1 hk')).2.2, Option.getD_some, hmean]

/-- **C99** (finding). The mean displacement is not subtracted: if all rows are displaced by the same amount, every bin
that has a pair shows its square, at whatever distance. -/
theorem C99_common_shift (data : List Datum) (bins : ℤ) (e : List ℝ) (he : e.Pairwise (· ≤ ·)) (c d : ℝ)
    (hc : ∀ a ∈ data, a.dx = c ∧ a.dy = d) (r : List ℝ × List ℝ × List ℝ)
    (h : empiricalCovariance data bins (some e) = .ok r) (k : ℕ) (hk : k + 1 < e.length)
    (a b : Datum) (ha : a ∈ data) (hb : b ∈ data)
    (hab : e[k] ≤ Real.sqrt ((a.x - b.x) ^ 2 + (a.y - b.y) ^ 2) ∧ Real.sqrt ((a.x - b.x) ^ 2 + (a.y - b.y) ^ 2) < e[k + 1]) :
    r.2.1[k]? = some (c ^ 2) ∧ r.2.2[k]? = some (d ^ 2) := by
  obtain ⟨_, h2, h3⟩ := C99_bins data bins e he r h k hk
  have hpos : pairCount data e[k] e[k + 1] ≠ 0 := by
    intro hz
    have := pairSum_zero (fun a' b' => if a'.x = a.x ∧ a'.y = a.y ∧ b'.x = b.x ∧ b'.y = b.y then 1 else 0) hz
    have hnn : ∀ a' : Datum, 0 ≤ (data.map fun b' => if e[k] ≤ Real.sqrt ((a'.x - b'.x) ^ 2 + (a'.y - b'.y) ^ 2) ∧
        Real.sqrt ((a'.x - b'.x) ^ 2 + (a'.y - b'.y) ^ 2) < e[k + 1] then (1 : ℝ) else 0).sum := by
      intro a'
      refine List.sum_nonneg ?_
      simp only [List.mem_map, forall_exists_index, and_imp, forall_apply_eq_imp_iff₂]
      intro b' _
      split_ifs <;> norm_num
    unfold pairCount pairSum at hz
    have h1 := List.single_le_sum (l := data.map fun a => (data.map fun b => if e[k] ≤ Real.sqrt ((a.x - b.x) ^ 2 + (a.y - b.y) ^ 2) ∧
        Real.sqrt ((a.x - b.x) ^ 2 + (a.y - b.y) ^ 2) < e[k + 1] then (1 : ℝ) else 0).sum)
      (by simp only [List.mem_map, forall_exists_index, and_imp, forall_apply_eq_imp_iff₂]; exact fun a _ => hnn a)
      _ (List.mem_map.2 ⟨a, ha, rfl⟩)
    rw [hz] at h1
    have h2 := List.single_le_sum (l := data.map fun b => if e[k] ≤ Real.sqrt ((a.x - b.x) ^ 2 + (a.y - b.y) ^ 2) ∧
        Real.sqrt ((a.x - b.x) ^ 2 + (a.y - b.y) ^ 2) < e[k + 1] then (1 : ℝ) else 0)
      (by simp only [List.mem_map, forall_exists_index, and_imp, forall_apply_eq_imp_iff₂]; intro b _; split_ifs <;> norm_num)
      _ (List.mem_map.2 ⟨b, hb, rfl⟩)
    rw [if_pos hab] at h2
    linarith
  have hsum : ∀ (f : Datum → ℝ) (c : ℝ), (∀ a ∈ data, f a = c) →
      pairSum data (fun a b => f a * f b) e[k] e[k + 1] = c ^ 2 * pairCount data e[k] e[k + 1] := by
    intro f c hf
    unfold pairCount pairSum
    rw [← List.sum_map_mul_left]
    congr 1
    refine List.map_congr_left fun a ha => ?_
    rw [← List.sum_map_mul_left]
    congr 1
    refine List.map_congr_left fun b hb => ?_
    dsimp only
    rw [hf a ha, hf b hb]
    split_ifs <;> ring
  rw [h2, h3]
  unfold pairMean
  rw [hsum Datum.dx c fun a ha => (hc a ha).1, hsum Datum.dy d fun a ha => (hc a ha).2]
  constructor <;> congr 1 <;> field_simp

theorem Lemmas.EmpCovar.npMin_perm {l l' : List ℝ} (h : l.Perm l') : npMin l = npMin l' := by
  cases l with
  | nil => rw [List.nil_perm.1 h]
  | cons a t =>
    cases l' with
    | nil => exact absurd (List.perm_nil.1 h) (by simp)
    | cons b u =>
      obtain ⟨h1, h2⟩ := npMin_ok (l := a :: t) rfl
      obtain ⟨h3, h4⟩ := npMin_ok (l := b :: u) rfl
      exact congrArg Except.ok (le_antisymm (h2 _ (h.mem_iff.2 h3)) (h4 _ (h.mem_iff.1 h1)))

theorem Lemmas.EmpCovar.npMax_perm {l l' : List ℝ} (h : l.Perm l') : npMax l = npMax l' := by
  cases l with
  | nil => rw [List.nil_perm.1 h]
  | cons a t =>
    cases l' with
    | nil => exact absurd (List.perm_nil.1 h) (by simp)
    | cons b u =>
      obtain ⟨h1, h2⟩ := npMax_ok (l := a :: t) rfl
      obtain ⟨h3, h4⟩ := npMax_ok (l := b :: u) rfl
      exact congrArg Except.ok (le_antisymm (h4 _ (h.mem_iff.1 h1)) (h2 _ (h.mem_iff.2 h3)))

theorem Lemmas.EmpCovar.bincount_perm {l l' : List (ℕ × ℝ)} (h : l.Perm l') (n : ℕ) : bincount l n = bincount l' n := by
  have key : ∀ (l : List (ℕ × ℝ)) (n : ℕ), l.foldr (fun p m => max (p.1 + 1) m) 0 ≤ n ↔ ∀ p ∈ l, p.1 + 1 ≤ n := by
    intro l n
    induction l with
    | nil => simp
    | cons p l ih => rw [List.foldr_cons, max_le_iff, ih]; simp
  have hm : l.foldr (fun p m => max (p.1 + 1) m) 0 = l'.foldr (fun p m => max (p.1 + 1) m) 0 := by
    refine le_antisymm ((key _ _).2 fun p hp => (key _ _).1 le_rfl p (h.mem_iff.1 hp))
      ((key _ _).2 fun p hp => (key _ _).1 le_rfl p (h.mem_iff.2 hp))
  unfold bincount
  rw [hm]
  refine List.map_congr_left fun k _ => ?_
  exact ((h.filter _).map _).sum_eq

/-- **C99**. The order of the rows does not matter. -/
theorem C99_perm (data data' : List Datum) (hp : data.Perm data') (bins : ℤ) (edges : Option (List ℝ)) :
    empiricalCovariance data bins edges = empiricalCovariance data' bins edges := by
  have hpairs : (pairs data).Perm (pairs data') := by
    unfold pairs
    exact (hp.flatMap_right _).trans (List.Perm.flatMap_left _ fun a _ => hp.map _)
  have hfin : ∀ e, finish (pairs data) e = finish (pairs data') e := by
    intro e
    have hb : ∀ (w : Datum × Datum → ℝ) (n : ℕ), bincount (binned e w (pairs data)) n = bincount (binned e w (pairs data')) n :=
      fun w n => Lemmas.EmpCovar.bincount_perm (hpairs.filterMap _) n
    unfold finish counts
    simp only [hb]
  unfold empiricalCovariance
  cases edges with
  | some e => exact hfin e
  | none =>
    dsimp only
    rw [Lemmas.EmpCovar.npMin_perm (hpairs.map _), Lemmas.EmpCovar.npMax_perm (hpairs.map _)]
    simp only [hfin]

/-- **C99**. The first bin contains every row with itself: if no two different rows are as near as the width of a bin,
its values are the mean squares of the displacements. -/
theorem C99_first (data : List Datum) (bins : ℤ) (e : List ℝ) (he : e.Pairwise (· ≤ ·)) (hl : 1 < e.length)
    (h0 : e[0] ≤ (0 : ℝ)) (hpos : (0 : ℝ) < e[1])
    (hfar : data.Pairwise fun a b => e[1] ≤ Real.sqrt ((a.x - b.x) ^ 2 + (a.y - b.y) ^ 2))
    (r : List ℝ × List ℝ × List ℝ) (h : empiricalCovariance data bins (some e) = .ok r) :
    r.2.1[0]? = some ((data.map fun a => a.dx ^ 2).sum / (data.length : ℝ)) ∧
    r.2.2[0]? = some ((data.map fun a => a.dy ^ 2).sum / (data.length : ℝ)) := by
  obtain ⟨_, h2, h3⟩ := C99_bins data bins e he r h 0 (by omega)
  have hsym : ∀ a b : Datum, Real.sqrt ((a.x - b.x) ^ 2 + (a.y - b.y) ^ 2) = Real.sqrt ((b.x - a.x) ^ 2 + (b.y - a.y) ^ 2) := by
    intro a b; congr 1; ring
  have hdiag : ∀ w : Datum → Datum → ℝ, pairSum data w e[0] e[1] = (data.map fun a => w a a).sum := by
    intro w
    clear h h2 h3
    induction data with
    | nil => simp [pairSum]
    | cons a l ih =>
      obtain ⟨f1, f2⟩ := List.pairwise_cons.1 hfar
      have ih := ih f2
      unfold pairSum at ih ⊢
      simp only [List.map_cons, List.sum_cons]
      have z1 : (l.map fun b => if e[0] ≤ Real.sqrt ((a.x - b.x) ^ 2 + (a.y - b.y) ^ 2) ∧
          Real.sqrt ((a.x - b.x) ^ 2 + (a.y - b.y) ^ 2) < e[1] then w a b else 0).sum = 0 := by
        refine List.sum_eq_zero ?_
        simp only [List.mem_map, forall_exists_index, and_imp, forall_apply_eq_imp_iff₂]
        intro b hb
        rw [if_neg]
        rintro ⟨_, hc⟩
        linarith [f1 b hb]
      have z2 : ∀ b ∈ l, (if e[0] ≤ Real.sqrt ((b.x - a.x) ^ 2 + (b.y - a.y) ^ 2) ∧
          Real.sqrt ((b.x - a.x) ^ 2 + (b.y - a.y) ^ 2) < e[1] then w b a else 0) = 0 := by
        intro b hb
        rw [if_neg]
        rintro ⟨_, hc⟩
        rw [hsym] at hc
        linarith [f1 b hb]
      rw [z1]
      have : (l.map fun b => (if e[0] ≤ Real.sqrt ((b.x - a.x) ^ 2 + (b.y - a.y) ^ 2) ∧
          Real.sqrt ((b.x - a.x) ^ 2 + (b.y - a.y) ^ 2) < e[1] then w b a else 0) +
          (l.map fun c => if e[0] ≤ Real.sqrt ((b.x - c.x) ^ 2 + (b.y - c.y) ^ 2) ∧
            Real.sqrt ((b.x - c.x) ^ 2 + (b.y - c.y) ^ 2) < e[1] then w b c else 0).sum) =
          l.map fun b => (l.map fun c => if e[0] ≤ Real.sqrt ((b.x - c.x) ^ 2 + (b.y - c.y) ^ 2) ∧
            Real.sqrt ((b.x - c.x) ^ 2 + (b.y - c.y) ^ 2) < e[1] then w b c else 0).sum :=
        List.map_congr_left fun b hb => by rw [z2 b hb, zero_add]
      rw [this, ih]
      have h0 : e[0] ≤ (0 : ℝ) := h0
      simp [h0, hpos]
  simp only [zero_add] at h2 h3
  rw [h2, h3]
  unfold pairMean pairCount
  rw [hdiag, hdiag, hdiag]
  simp [pow_two]

/-- Two rows 3 mm apart, edges 0, 1: all hypotheses of `C99_first`; and `C99_lengths` shows two values for one bin. -/
example : ∃ r, empiricalCovariance [⟨0, 0, 1, 2⟩, ⟨3, 0, 3, 4⟩] 10 (some [0, 1]) = .ok r ∧ r.1.length = 1 ∧ r.2.1.length = 2 ∧
    r.2.1[0]? = some 5 := by
  rcases h : empiricalCovariance [⟨0, 0, 1, 2⟩, ⟨3, 0, 3, 4⟩] 10 (some [0, 1]) with err | r
  · rw [C99_errors] at h
    simp at h
  · refine ⟨r, rfl, ?_⟩
    have hs : Real.sqrt ((0 - 3 : ℝ) ^ 2 + (0 - 0) ^ 2) = 3 := by
      rw [show (0 - 3 : ℝ) ^ 2 + (0 - 0) ^ 2 = 3 ^ 2 by norm_num]; exact Real.sqrt_sq (by norm_num)
    obtain ⟨l1, _, _, l4⟩ := C99_lengths _ 10 [0, 1] (by simp) (by simp) r h
    refine ⟨l1, l4 ⟨⟨0, 0, 1, 2⟩, by simp, ⟨3, 0, 3, 4⟩, by simp, ?_⟩, ?_⟩
    · dsimp only; rw [hs]; norm_num
    · have := (C99_first _ 10 [0, 1] (by simp) (by simp) (by simp) (by simp) (by
        simp only [List.pairwise_cons, List.mem_singleton, forall_eq, List.not_mem_nil, false_imp_iff, implies_true,
          List.Pairwise.nil, and_true]
        rw [hs]; norm_num) r h).1
      rw [this]
      norm_num

/-- Default edges: no exception. -/
example : ∃ r, empiricalCovariance [⟨0, 0, 1, 2⟩, ⟨3, 0, 3, 4⟩] = .ok r := by
  rcases h : empiricalCovariance [⟨0, 0, 1, 2⟩, ⟨3, 0, 3, 4⟩] with err | r
  · rw [C99_errors] at h
    simp at h
  · exact ⟨r, rfl⟩

end Verif.Props
