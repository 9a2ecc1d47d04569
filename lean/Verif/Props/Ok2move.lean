import Verif.Model.Ok2move
import Mathlib.Data.List.Basic
import Mathlib.Analysis.SpecialFunctions.Trigonometric.Inverse
import Mathlib.Tactic.Linarith
import Mathlib.Tactic.FinCases
import Mathlib.Data.Fin.VecNotation

namespace Verif.Props
open Verif.Py Verif.Model.Ok2move

namespace O2m

theorem flatten_chunks {α : Type} (ids : List α) (g k : ℕ) :
    ((List.range k).map fun i => (ids.drop (i * g)).take g).flatten = ids.take (k * g) := by
  induction k with
  | zero => simp
  | succ k ih =>
    rw [List.range_succ, List.map_append, List.flatten_append, ih]
    simp only [List.map_cons, List.map_nil, List.flatten_cons, List.flatten_nil, List.append_nil]
    rw [Nat.succ_mul, List.take_add]

theorem flatten_filter {α : Type} (l : List (List α)) : (l.filter fun x => 0 < x.length).flatten = l.flatten := by
  induction l with
  | nil => rfl
  | cons a l ih =>
    cases a with
    | nil => simp [List.filter_cons, ih]
    | cons b a => simp [List.filter_cons, ih]

theorem dist_nonneg {n : ℕ} (x y : Fin n → ℝ) (i j : Fin n) : 0 ≤ dist x y i j := Real.sqrt_nonneg _

theorem dist_pos {n : ℕ} (x y : Fin n → ℝ) (hinj : ∀ i j, x i = x j → y i = y j → i = j) (i j : Fin n) (h : i ≠ j) :
    0 < dist x y i j := by
  unfold Model.Ok2move.dist hypot
  apply Real.sqrt_pos.2
  by_contra hc
  have h1 : x j - x i = 0 := by nlinarith [sq_nonneg (x j - x i), sq_nonneg (y j - y i)]
  have h2 : y j - y i = 0 := by nlinarith [sq_nonneg (x j - x i), sq_nonneg (y j - y i)]
  exact h (hinj i j (by linarith) (by linarith))

theorem dist_self {n : ℕ} (x y : Fin n → ℝ) (i : Fin n) : dist x y i i = 0 := by
  unfold Model.Ok2move.dist hypot; simp

theorem arccos_lt {t : ℝ} : degrees (Real.arccos t) < 90 ↔ 0 < t := by
  have hpi := Real.pi_pos
  unfold degrees; rw [← mul_div_assoc]
  rw [show Real.arccos t * 180 / Real.pi < 90 ↔ Real.arccos t < Real.pi / 2 from ?_, Real.arccos_lt_pi_div_two]
  rw [div_lt_iff₀ hpi]
  constructor <;> intro h <;> linarith

end O2m
open O2m

/-- C49: the text listing puts every positioner to move into exactly one group, in order; groups
are non-empty, have at most the group size, and all but the last are full. -/
theorem C49_groups {α : Type} (ids : List α) (g : ℕ) (hg : 0 < g) :
    ∃ gs, textGroups ids g = .ok gs ∧ gs.flatten = ids ∧ (∀ l ∈ gs, l ≠ [] ∧ l.length ≤ g) ∧
      ∀ l ∈ gs.dropLast, l.length = g := by
  unfold textGroups
  rw [if_neg (by omega)]
  refine ⟨_, rfl, ?_, ?_, ?_⟩
  · rw [flatten_filter, flatten_chunks]
    apply List.take_of_length_le
    have := Nat.lt_div_mul_add (a := ids.length) hg
    rw [Nat.add_mul]; omega
  · intro l hl
    rw [List.mem_filter] at hl
    obtain ⟨h1, h2⟩ := hl
    simp only [List.mem_map] at h1
    obtain ⟨i, -, rfl⟩ := h1
    refine ⟨?_, List.length_take_le _ _⟩
    intro h
    rw [h] at h2
    simp at h2
  · rw [List.range_succ, List.map_append, List.filter_append]
    have hfull : ∀ l ∈ (List.range (ids.length / g)).map (fun i => (ids.drop (i * g)).take g), l.length = g := by
      intro l hl
      simp only [List.mem_map, List.mem_range] at hl
      obtain ⟨i, hi, rfl⟩ := hl
      rw [List.length_take, List.length_drop]
      have h1 : (i + 1) * g ≤ ids.length / g * g := Nat.mul_le_mul_right g hi
      have h2 := Nat.div_mul_le_self ids.length g
      rw [Nat.add_mul] at h1
      omega
    intro l hl
    apply hfull
    simp only [List.map_cons, List.map_nil, List.filter_cons, List.filter_nil] at hl
    split_ifs at hl
    · rw [List.dropLast_concat] at hl
      exact List.mem_of_mem_filter hl
    · rw [List.append_nil] at hl
      exact List.mem_of_mem_filter (List.mem_of_mem_dropLast hl)

/-- C49: a group size of zero is a ZeroDivisionError. -/
theorem C49_zero {α : Type} (ids : List α) : textGroups ids 0 = .error .zeroDivision ∧ htmlGroups ids 0 = .error .zeroDivision :=
  ⟨rfl, rfl⟩

/-- C49 (finding): the html pages list only the full groups; the remaining `len % g` positioners
are in none of them. -/
theorem C49_html_drops_rest {α : Type} (ids : List α) (g : ℕ) (hg : 0 < g) :
    ∃ gs, htmlGroups ids g = .ok gs ∧ (∀ l ∈ gs, l.length = g) ∧
      gs.flatten ++ ids.drop (ids.length - ids.length % g) = ids := by
  unfold htmlGroups
  rw [if_neg (by omega)]
  refine ⟨_, rfl, ?_, ?_⟩
  · intro l hl
    simp only [List.mem_map, List.mem_range] at hl
    obtain ⟨i, hi, rfl⟩ := hl
    rw [List.length_take, List.length_drop]
    have h1 : (i + 1) * g ≤ ids.length / g * g := Nat.mul_le_mul_right g hi
    have h2 := Nat.div_mul_le_self ids.length g
    rw [Nat.add_mul] at h1
    omega
  · rw [flatten_chunks]
    have : ids.length - ids.length % g = ids.length / g * g := by
      have := Nat.div_add_mod ids.length g
      rw [mul_comm] at this
      omega
    rw [this, List.take_append_drop]

/-- What `argsort` guarantees: every spot once, by increasing distance. -/
def SortsByDistance {n : ℕ} (x y : Fin n → ℝ) (sort : Fin n → List (Fin n)) : Prop :=
  ∀ i, (sort i).Perm (List.finRange n) ∧ (sort i).Pairwise fun a b => hypot (x a - x i) (y a - y i) ≤ hypot (x b - x i) (y b - y i)

/-- C49: with at least three spots at distinct places, spot `i` may not move iff its two nearest
other spots `j`, `k` are both closer than 3.5 mm and are seen from `i` at 90 degrees or more. -/
theorem C49_ok2move {n : ℕ} (x y : Fin n → ℝ) (hinj : ∀ i j, x i = x j → y i = y j → i = j) (hn : 3 ≤ n)
    (sort : Fin n → List (Fin n)) (hs : SortsByDistance x y sort) :
    ∃ oks, ok2move x y sort = .ok oks ∧ oks.length = n ∧ ∀ i : Fin n, ∃ j k, j ≠ i ∧ k ≠ i ∧ j ≠ k ∧
      (∀ l, l ≠ i → l ≠ j → dist x y i j ≤ dist x y i l ∧ (l ≠ k → dist x y i k ≤ dist x y i l)) ∧
      (oks[i.val]? = some false ↔ dist x y i j < 3.5 ∧ dist x y i k < 3.5 ∧
        (x j - x i) * (x k - x i) + (y j - y i) * (y k - y i) ≤ 0) ∧
      (oks[i.val]? = some true ∨ oks[i.val]? = some false) := by
  have key : ∀ i : Fin n, ∃ j k, ∃ b, okOne x y sort 3.5 90 i = .ok b ∧ j ≠ i ∧ k ≠ i ∧ j ≠ k ∧
      (∀ l, l ≠ i → l ≠ j → dist x y i j ≤ dist x y i l ∧ (l ≠ k → dist x y i k ≤ dist x y i l)) ∧
      (b = false ↔ dist x y i j < 3.5 ∧ dist x y i k < 3.5 ∧
        (x j - x i) * (x k - x i) + (y j - y i) * (y k - y i) ≤ 0) := by
    intro i
    obtain ⟨hp, hd⟩ := hs i
    have hlen := hp.length_eq
    rw [List.length_finRange] at hlen
    have hnd : (sort i).Nodup := hp.nodup_iff.2 (List.nodup_finRange n)
    have hmem : ∀ l, l ∈ sort i := fun l => hp.mem_iff.2 (List.mem_finRange l)
    match hsi : sort i, hlen with
    | [], h => simp at h; omega
    | [_], h => simp at h; omega
    | [_, _], h => simp at h; omega
    | a :: j :: k :: rest, h =>
      rw [hsi] at hd hnd hmem
      have ha : a = i := by
        by_contra hne
        have hi : i ∈ j :: k :: rest := by
          have := hmem i
          rcases List.mem_cons.1 this with h | h
          · exact absurd h.symm hne
          · exact h
        have h1 := (List.pairwise_cons.1 hd).1 i hi
        have h2 := dist_pos x y hinj i a (Ne.symm hne)
        have h3 := dist_self x y i
        unfold Model.Ok2move.dist at h2 h3
        linarith
      subst ha
      have hd' := (List.pairwise_cons.1 hd).2
      simp only [List.nodup_cons, List.mem_cons, not_or] at hnd
      obtain ⟨⟨n1, n2, n3⟩, ⟨n4, n5⟩, n6, n7⟩ := hnd
      have hj := dist_pos x y hinj a j n1
      have hk := dist_pos x y hinj a k n2
      have hden : 0 < Model.Ok2move.dist x y a j * Model.Ok2move.dist x y a k := mul_pos hj hk
      have hang : (match angle x y a j k with
          | some t => decide (t < 90)
          | none => false) = decide (0 < (x j - x a) * (x k - x a) + (y j - y a) * (y k - y a)) := by
        unfold angle
        simp only [hden.ne', if_false]
        rw [decide_eq_decide, arccos_lt]
        exact div_pos_iff_of_pos_right hden
      have hok : okOne x y sort 3.5 90 a =
          .ok (decide (([j, k].filter fun l => Model.Ok2move.dist x y a l < 3.5).length < 2) ||
            decide (0 < (x j - x a) * (x k - x a) + (y j - y a) * (y k - y a))) := by
        rw [← hang]
        unfold okOne
        rw [hsi]
        rfl
      refine ⟨j, k, _, hok, Ne.symm n1, Ne.symm n2, n4, ?_, ?_⟩
      · intro l hl hlj
        have hl' : l ∈ k :: rest := by
          have := hmem l
          simp only [List.mem_cons] at this ⊢
          tauto
        have h1 := (List.pairwise_cons.1 hd').1 l hl'
        refine ⟨h1, ?_⟩
        intro hlk
        have hl'' : l ∈ rest := by
          simp only [List.mem_cons] at hl'; tauto
        exact (List.pairwise_cons.1 (List.pairwise_cons.1 hd').2).1 l hl''
      · by_cases c1 : Model.Ok2move.dist x y a j < 3.5 <;> by_cases c2 : Model.Ok2move.dist x y a k < 3.5 <;>
          simp [List.filter_cons, c1, c2]
  choose J K B hB using key
  have hm : ok2move x y sort = .ok ((List.finRange n).map B) := by
    unfold ok2move
    generalize List.finRange n = l
    induction l with
    | nil => rfl
    | cons a l ih => rw [List.mapM_cons, (hB a).1, ih]; rfl
  refine ⟨_, hm, by simp, ?_⟩
  intro i
  obtain ⟨-, h1, h2, h3, h4, h5⟩ := hB i
  have hget : ((List.finRange n).map B)[i.val]? = some (B i) := by
    simp
  refine ⟨J i, K i, h1, h2, h3, h4, ?_, ?_⟩
  · rw [hget, Option.some.injEq]; exact h5
  · rw [hget]; cases B i <;> simp

/-- C49: with fewer than three spots (and at least one) the program fails with ValueError. -/
theorem C49_too_few {n : ℕ} (x y : Fin n → ℝ) (h0 : 0 < n) (hn : n < 3) (sort : Fin n → List (Fin n))
    (hs : SortsByDistance x y sort) : ok2move x y sort = .error .valueError := by
  have key : ∀ i : Fin n, okOne x y sort 3.5 90 i = .error .valueError := by
    intro i
    have hlen := (hs i).1.length_eq
    rw [List.length_finRange] at hlen
    unfold okOne
    match hsi : sort i, hlen with
    | [], h => rfl
    | [_], h => rfl
    | [_, _], h => rfl
    | _ :: _ :: _ :: _, h => simp at h; omega
  obtain ⟨m, rfl⟩ : ∃ m, n = m + 1 := ⟨n - 1, by omega⟩
  unfold ok2move
  rw [List.finRange_succ, List.mapM_cons, key]
  rfl

example : ∃ gs, textGroups [1, 2, 3, 4, 5] 2 = .ok gs ∧ gs = [[1, 2], [3, 4], [5]] := ⟨_, rfl, by decide⟩

/-- Spots at 0, 1 and 3 mm on a line meet the hypotheses of `C49_ok2move`. -/
example : ∃ (x y : Fin 3 → ℝ) (sort : Fin 3 → List (Fin 3)),
    (∀ i j, x i = x j → y i = y j → i = j) ∧ SortsByDistance x y sort := by
  refine ⟨![0, 1, 3], fun _ => 0, ![[0, 1, 2], [1, 0, 2], [2, 1, 0]], ?_, ?_⟩
  · intro i j h _
    fin_cases i <;> fin_cases j <;> simp at h ⊢
  · intro i
    refine ⟨?_, ?_⟩
    · fin_cases i <;> decide
    · have hh : ∀ a b : ℝ, hypot a 0 ≤ hypot b 0 ↔ |a| ≤ |b| := by
        intro a b
        unfold hypot
        simp [Real.sqrt_sq_eq_abs]
      fin_cases i <;> simp [hh] <;> norm_num [abs_of_nonneg, abs_of_nonpos]

end Verif.Props
