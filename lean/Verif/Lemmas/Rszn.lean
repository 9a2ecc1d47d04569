import Verif.Model.Rszn
import Mathlib.Data.List.Chain
import Mathlib.Tactic.Linarith
import Mathlib.Tactic.FieldSimp
import Mathlib.Tactic.Positivity
import Mathlib.Tactic.Ring

namespace Verif.Lemmas.Rszn
open Verif.Model.Rszn

/-- Strictly increasing neighbours (computable check). -/
def incr : List Int → Bool
  | a :: b :: t => decide (a < b) && incr (b :: t)
  | _ => true

theorem incr_chain : ∀ l : List Int, incr l = true → l.IsChain (· < ·)
  | [], _ => List.IsChain.nil
  | [_], _ => List.IsChain.singleton _
  | a :: b :: t, h => by
    simp only [incr, Bool.and_eq_true, decide_eq_true_eq] at h
    exact List.IsChain.cons_cons h.1 (incr_chain (b :: t) h.2)

/-- Both coordinates increase from each node to the next. -/
def Up (p q : ℝ × ℝ) : Prop := p.1 < q.1 ∧ p.2 < q.2

theorem zip_chain : ∀ (a b : List Int), incr a = true → incr b = true →
    ((column a).zip (column b)).IsChain Up
  | [], b, _, _ => by simp [column]
  | a, [], _, _ => by simp [column]
  | [a], b :: t, _, _ => by simp [column]
  | a :: a' :: t, [b], _, _ => by simp [column]
  | a :: a' :: t, b :: b' :: t', h1, h2 => by
    simp only [incr, Bool.and_eq_true, decide_eq_true_eq] at h1 h2
    have ih := zip_chain (a' :: t) (b' :: t') h1.2 h2.2
    simp only [column, List.map_cons, List.zip_cons_cons] at ih ⊢
    refine List.IsChain.cons_cons ⟨?_, ?_⟩ ih
    · show (a:ℝ) / 10 ^ 9 < (a':ℝ) / 10 ^ 9
      have : (a:ℝ) < a' := by exact_mod_cast h1.1
      gcongr
    · show (b:ℝ) / 10 ^ 9 < (b':ℝ) / 10 ^ 9
      have : (b:ℝ) < b' := by exact_mod_cast h2.1
      gcongr

/-- Swap abscissae and ordinates. -/
def swap (l : List (ℝ × ℝ)) : List (ℝ × ℝ) := l.map Prod.swap

theorem swap_zip (a b : List ℝ) : swap (a.zip b) = b.zip a := by
  unfold swap; exact List.zip_swap a b

/-- Inside the bounds the interpolation is defined, stays between the end
ordinates, and is undone by interpolating the swapped table. -/
theorem segment_inv : ∀ (p : ℝ × ℝ) (t : List (ℝ × ℝ)) (x : ℝ), (p :: t).IsChain Up →
    p.1 ≤ x → x ≤ ((p :: t).getLast (by simp)).1 →
    ∃ y, segment (p :: t) x = some y ∧ p.2 ≤ y ∧ y ≤ ((p :: t).getLast (by simp)).2 ∧
      segment (swap (p :: t)) y = some x
  | (a, b), [], x, _, h1, h2 => by
    have hx : x = a := le_antisymm h2 h1
    refine ⟨b, rfl, le_rfl, le_rfl, ?_⟩
    rw [hx]; rfl
  | (a, b), (a', b') :: t, x, hc, h1, h2 => by
    rw [List.isChain_cons_cons] at hc
    obtain ⟨⟨ha, hb⟩, hc⟩ := hc
    simp only at ha hb h1
    have hlast : ∀ (h : (a, b) :: (a', b') :: t ≠ []), ((a, b) :: (a', b') :: t).getLast h
      = ((a', b') :: t).getLast (by simp) := fun h => List.getLast_cons _
    rw [hlast] at h2
    have hswap : ∀ y, segment (swap ((a, b) :: (a', b') :: t)) y =
        if y < b' then some ((a' - a) / (b' - b) * (y - b) + a)
        else segment (swap ((a', b') :: t)) y := fun y => rfl
    by_cases hx : x < a'
    · refine ⟨(b' - b) / (a' - a) * (x - a) + b, ?_, ?_, ?_, ?_⟩
      · rw [segment, if_pos hx]
      · have : 0 ≤ (b' - b) / (a' - a) * (x - a) :=
          mul_nonneg (div_nonneg (by linarith) (by linarith)) (by linarith)
        simp only; linarith
      · -- below b' which is below the last ordinate
        obtain ⟨y0, -, h4, h5, -⟩ := segment_inv (a', b') t a' hc le_rfl (by
          obtain ⟨z, -, hz1, hz2⟩ : ∃ z : ℝ, True ∧ a' ≤ z ∧ z = (((a', b') :: t).getLast (by simp)).1 := by
            refine ⟨_, trivial, ?_, rfl⟩
            have : ∀ (q : ℝ × ℝ) (s : List (ℝ × ℝ)), (q :: s).IsChain Up →
                q.1 ≤ ((q :: s).getLast (by simp)).1 := by
              intro q s
              induction s generalizing q with
              | nil => intro _; exact le_rfl
              | cons r s ih =>
                intro h
                rw [List.isChain_cons_cons] at h
                rw [List.getLast_cons (by simp)]
                exact h.1.1.le.trans (ih r h.2)
            exact this _ _ hc
          linarith)
        rw [hlast]
        have : (b' - b) / (a' - a) * (x - a) ≤ b' - b := by
          rw [div_mul_eq_mul_div, div_le_iff₀ (by linarith)]
          nlinarith
        simp only at h4
        linarith
      · have hy : (b' - b) / (a' - a) * (x - a) + b < b' := by
          have : (b' - b) / (a' - a) * (x - a) < b' - b := by
            rw [div_mul_eq_mul_div, div_lt_iff₀ (by linarith)]
            nlinarith
          linarith
        rw [hswap, if_pos hy]
        congr 1
        have h3 : a' - a ≠ 0 := by linarith
        have h4 : b' - b ≠ 0 := by linarith
        field_simp
        ring
    · obtain ⟨y, e, h3, h4, h5⟩ := segment_inv (a', b') t x hc (not_lt.1 hx) h2
      refine ⟨y, ?_, ?_, ?_, ?_⟩
      · rw [segment, if_neg hx]; exact e
      · simp only at h3 ⊢; linarith
      · rw [hlast]; exact h4
      · rw [hswap, if_neg (not_lt.2 h3)]; exact h5

/-- Interpolating an increasing table is strictly increasing. -/
theorem segment_mono : ∀ (p : ℝ × ℝ) (t : List (ℝ × ℝ)) (x x' y y' : ℝ), (p :: t).IsChain Up →
    p.1 ≤ x → x < x' → x' ≤ ((p :: t).getLast (by simp)).1 →
    segment (p :: t) x = some y → segment (p :: t) x' = some y' → y < y'
  | (a, b), [], x, x', y, y', _, h1, h2, h3, _, _ => by
    simp at h3 h1; linarith
  | (a, b), (a', b') :: t, x, x', y, y', hc, h1, h2, h3, e, e' => by
    have hc0 := hc
    rw [List.isChain_cons_cons] at hc
    obtain ⟨⟨ha, hb⟩, hc⟩ := hc
    simp only at ha hb h1
    rw [List.getLast_cons (by simp)] at h3
    have hsl : 0 < (b' - b) / (a' - a) := div_pos (by linarith) (by linarith)
    rw [segment] at e e'
    by_cases hx : x < a'
    · rw [if_pos hx] at e
      injection e with e
      by_cases hx' : x' < a'
      · rw [if_pos hx'] at e'
        injection e' with e'
        rw [← e, ← e']
        have := mul_lt_mul_of_pos_left (show x - a < x' - a by linarith) hsl
        linarith
      · rw [if_neg hx'] at e'
        obtain ⟨y2, f, h4, -, -⟩ := segment_inv (a', b') t x' hc (not_lt.1 hx') h3
        rw [f] at e'; injection e' with e'
        rw [← e, ← e']
        have : (b' - b) / (a' - a) * (x - a) < b' - b := by
          rw [div_mul_eq_mul_div, div_lt_iff₀ (by linarith)]
          nlinarith
        simp only at h4
        linarith
    · rw [if_neg hx] at e
      rw [if_neg (by linarith)] at e'
      exact segment_mono (a', b') t x x' y y' hc (not_lt.1 hx) h2 h3 e e'

theorem zip_getLast? : ∀ (a b : List ℝ), a.length = b.length →
    (a.zip b).getLast? = (match a.getLast?, b.getLast? with
      | some x, some y => some (x, y)
      | _, _ => none)
  | [], [], _ => rfl
  | [], _ :: _, h => by simp at h
  | _ :: _, [], h => by simp at h
  | [_], [_], _ => rfl
  | [_], _ :: _ :: _, h => by simp at h
  | _ :: _ :: _, [_], h => by simp at h
  | x :: x' :: t, y :: y' :: t', h => by
    have ih := zip_getLast? (x' :: t) (y' :: t') (by simpa using h)
    simp only [List.zip_cons_cons, List.getLast?_cons_cons] at ih ⊢
    exact ih

/-- The interpolation of two increasing columns: defined exactly between the
ends, with values between the ends, inverted by exchanging the columns, and
strictly increasing. -/
theorem interp_spec (a b : List Int) (hlen : a.length = b.length) (ha : incr a = true)
    (hb : incr b = true) (a0 aN b0 bN : Int) (ha0 : a.head? = some a0) (haN : a.getLast? = some aN)
    (hb0 : b.head? = some b0) (hbN : b.getLast? = some bN) (x : ℝ) :
    ((a0:ℝ) / 10 ^ 9 ≤ x → x ≤ (aN:ℝ) / 10 ^ 9 → ∃ y, interp x (column a) (column b) = some y ∧
      (b0:ℝ) / 10 ^ 9 ≤ y ∧ y ≤ (bN:ℝ) / 10 ^ 9 ∧ interp y (column b) (column a) = some x ∧
      ∀ x' y', x < x' → interp x' (column a) (column b) = some y' → y < y') ∧
    ((x < (a0:ℝ) / 10 ^ 9 ∨ (aN:ℝ) / 10 ^ 9 < x) → interp x (column a) (column b) = none) := by
  have ch := zip_chain a b ha hb
  have hA0 : (column a).head? = some ((a0:ℝ) / 10 ^ 9) := by unfold column; rw [List.head?_map, ha0]; rfl
  have hAN : (column a).getLast? = some ((aN:ℝ) / 10 ^ 9) := by
    unfold column; rw [List.getLast?_map, haN]; rfl
  have hB0 : (column b).head? = some ((b0:ℝ) / 10 ^ 9) := by unfold column; rw [List.head?_map, hb0]; rfl
  have hBN : (column b).getLast? = some ((bN:ℝ) / 10 ^ 9) := by
    unfold column; rw [List.getLast?_map, hbN]; rfl
  have hlen' : (column a).length = (column b).length := by simp [column, hlen]
  have hz : ∃ t, (column a).zip (column b) = ((a0:ℝ) / 10 ^ 9, (b0:ℝ) / 10 ^ 9) :: t := by
    cases hca : column a with
    | nil => rw [hca] at hA0; simp at hA0
    | cons p s =>
      cases hcb : column b with
      | nil => rw [hcb] at hB0; simp at hB0
      | cons q s' =>
        rw [hca] at hA0; rw [hcb] at hB0
        simp only [List.head?_cons, Option.some.injEq] at hA0 hB0
        exact ⟨s.zip s', by rw [hA0, hB0]; rfl⟩
  obtain ⟨t, ht⟩ := hz
  have hlast := zip_getLast? _ _ hlen'
  rw [hAN, hBN, ht, List.getLast?_eq_some_getLast (by simp)] at hlast
  simp only [Option.some.injEq] at hlast
  rw [ht] at ch
  have I : ∀ z, interp z (column a) (column b) = if z > (aN:ℝ) / 10 ^ 9 then none else
      if z < (a0:ℝ) / 10 ^ 9 then none else segment (((a0:ℝ) / 10 ^ 9, (b0:ℝ) / 10 ^ 9) :: t) z := by
    intro z; unfold interp; rw [hAN, hA0, ht]
  have J : ∀ z, interp z (column b) (column a) = if z > (bN:ℝ) / 10 ^ 9 then none else
      if z < (b0:ℝ) / 10 ^ 9 then none
      else segment (swap (((a0:ℝ) / 10 ^ 9, (b0:ℝ) / 10 ^ 9) :: t)) z := by
    intro z; unfold interp; rw [hBN, hB0, ← ht, swap_zip]
  constructor
  · intro h1 h2
    obtain ⟨y, e, h3, h4, h5⟩ := segment_inv _ t x ch h1 (by rw [hlast]; exact h2)
    rw [hlast] at h4
    have ex : interp x (column a) (column b) = some y := by
      rw [I, if_neg (not_lt.2 h2), if_neg (not_lt.2 h1), e]
    refine ⟨y, ex, h3, h4, ?_, ?_⟩
    · rw [J, if_neg (not_lt.2 h4), if_neg (not_lt.2 h3), h5]
    · intro x' y' hx e'
      rw [I] at e'
      split_ifs at e' with g1 g2
      exact segment_mono _ t x x' y y' ch h1 hx (by rw [hlast]; exact not_lt.1 g1) e e'
  · rintro (h | h)
    · rw [I, if_pos h]; split_ifs <;> rfl
    · rw [I, if_pos h]

theorem segment_node : ∀ (l : List (ℝ × ℝ)) (i : Nat) (p : ℝ × ℝ), l.IsChain (fun p q => p.1 < q.1) →
    l[i]? = some p → segment l p.1 = some p.2
  | [], i, p, _, h => by simp at h
  | [(a, b)], i, p, _, h => by
    match i with
    | 0 => simp at h; rw [← h]; rfl
    | i + 1 => simp at h
  | (a, b) :: (a', b') :: t, i, p, hc, h => by
    rw [List.isChain_cons_cons] at hc
    rw [segment]
    match i with
    | 0 =>
      simp only [List.getElem?_cons_zero, Option.some.injEq] at h
      rw [← h, if_pos hc.1]; simp
    | i + 1 =>
      rw [List.getElem?_cons_succ] at h
      have hge : a' ≤ p.1 := by
        have hp := List.isChain_iff_pairwise.1 hc.2
        match i with
        | 0 => simp at h; rw [← h]
        | i + 1 =>
          rw [List.getElem?_cons_succ] at h
          exact ((List.pairwise_cons.1 hp).1 p (List.mem_of_getElem? h)).le
      rw [if_neg (not_lt.2 hge)]
      exact segment_node _ i p hc.2 h

theorem interp_node (a b : List Int) (ha : incr a = true) (i : Nat) (m k : Int)
    (hm : a[i]? = some m) (hk : b[i]? = some k) :
    interp ((m:ℝ) / 10 ^ 9) (column a) (column b) = some ((k:ℝ) / 10 ^ 9) := by
  have hch : (column a).IsChain (· < ·) := by
    unfold column
    rw [List.isChain_map]
    refine (incr_chain a ha).imp ?_
    intro x y hxy
    have : (x:ℝ) < y := by exact_mod_cast hxy
    gcongr
  have hp := List.isChain_iff_pairwise.1 hch
  have hmem : (column a)[i]? = some ((m:ℝ) / 10 ^ 9) := by unfold column; simp [hm]
  have hmem' : (column b)[i]? = some ((k:ℝ) / 10 ^ 9) := by unfold column; simp [hk]
  have hi : i < (column a).length := by
    rw [List.getElem?_eq_some_iff] at hmem; exact hmem.1
  have hne : column a ≠ [] := by intro h; rw [h] at hi; simp at hi
  have hgi : (column a)[i] = (m:ℝ) / 10 ^ 9 := by
    rw [List.getElem?_eq_some_iff] at hmem; exact hmem.2
  have hle : ∀ (j j' : Nat) (h : j < (column a).length) (h' : j' < (column a).length), j ≤ j' →
      (column a)[j] ≤ (column a)[j'] := by
    intro j j' h h' hjj
    rcases Nat.lt_or_eq_of_le hjj with hlt | heq
    · exact (List.pairwise_iff_getElem.1 hp j j' h h' hlt).le
    · subst heq; exact le_rfl
  unfold interp
  rw [List.getLast?_eq_some_getLast hne, List.head?_eq_some_head hne]
  dsimp only
  rw [if_neg, if_neg]
  · have hc2 : ((column a).zip (column b)).IsChain (fun p q => p.1 < q.1) := by
      rw [List.isChain_iff_getElem]
      intro j hj
      have hlz : ((column a).zip (column b)).length ≤ (column a).length := by
        rw [List.length_zip]; exact min_le_left _ _
      simp only [List.getElem_zip]
      exact List.pairwise_iff_getElem.1 hp j (j + 1) (by omega) (by omega) (by omega)
    refine segment_node _ i ((m:ℝ) / 10 ^ 9, (k:ℝ) / 10 ^ 9) hc2 ?_
    rw [List.getElem?_zip_eq_some]
    exact ⟨hmem, hmem'⟩
  · rw [not_lt, List.head_eq_getElem hne, ← hgi]
    exact hle _ _ _ _ (by omega)
  · rw [gt_iff_lt, not_lt, List.getLast_eq_getElem, ← hgi]
    exact hle _ _ _ _ (by omega)

end Verif.Lemmas.Rszn
