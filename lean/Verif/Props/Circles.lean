import Verif.Model.Circles
import Verif.Lemmas.Sort
import Verif.Lemmas.Argmax
import Mathlib.Tactic.Linarith
import Mathlib.Tactic.LinearCombination
import Mathlib.Tactic.FieldSimp
import Mathlib.Tactic.NormNum
import Mathlib.Tactic.IntervalCases
import Mathlib.Algebra.BigOperators.Ring.List
import Mathlib.Data.Finset.Card
import Mathlib.Algebra.Order.BigOperators.Group.List
import Mathlib.Algebra.BigOperators.Group.List.Basic

/-!
# Circle fits (C38)
-/

namespace Verif.Props.Circ
open Verif.Py Verif.Model.Circles
open Verif.Model.MatchPositioners (median)

/-- `p` lies on the circle with centre `c` and radius `r`. -/
def On (c : ℝ × ℝ) (r : ℝ) (p : ℝ × ℝ) : Prop := (p.1 - c.1) ^ 2 + (p.2 - c.2) ^ 2 = r ^ 2

/-- Distance of two points. -/
noncomputable def D (p q : ℝ × ℝ) : ℝ := Real.sqrt ((p.1 - q.1) ^ 2 + (p.2 - q.2) ^ 2)

theorem getD_lt {α : Type*} (l : List α) (d : α) {i : ℕ} (h : i < l.length) : l.getD i d = l[i] := by
  simp [List.getD, h]

theorem hypot_D (p c : ℝ × ℝ) : hypot (p.1 - c.1) (p.2 - c.2) = D p c := rfl

theorem D_on {c p : ℝ × ℝ} {r : ℝ} (hr : 0 ≤ r) : D p c = r ↔ On c r p := by
  unfold D On
  constructor
  · intro h; rw [← h, Real.sq_sqrt (by positivity)]
  · intro h; rw [h, Real.sqrt_sq hr]

/-! ### the cyclic partner -/

theorem nxt_lt {n i : ℕ} (h : i < n) : nxt n i < n := Nat.mod_lt _ (by omega)

theorem nxt_eq {n i : ℕ} (hn : 2 ≤ n) (h : i < n) :
    nxt n i = if i + (n / 2 - 1) < n then i + (n / 2 - 1) else i + (n / 2 - 1) - n := by
  unfold nxt
  have e : i + n / 2 - 1 = i + (n / 2 - 1) := by omega
  rw [e]
  split_ifs with hlt
  · exact Nat.mod_eq_of_lt hlt
  · rw [Nat.mod_eq_sub_mod (by omega)]; exact Nat.mod_eq_of_lt (by omega)

theorem nxt_ne {n i : ℕ} (hn : 4 ≤ n) (h : i < n) : nxt n i ≠ i := by
  rw [nxt_eq (by omega) h]; split_ifs <;> omega

theorem nxt_nxt_ne {n i : ℕ} (hn : 4 ≤ n) (h : i < n) : nxt n (nxt n i) ≠ i := by
  rw [nxt_eq (by omega) (nxt_lt h), nxt_eq (by omega) h]; split_ifs <;> omega

theorem nxt_inj {n i j : ℕ} (hn : 2 ≤ n) (hi : i < n) (hj : j < n) (h : nxt n i = nxt n j) : i = j := by
  rw [nxt_eq hn hi, nxt_eq hn hj] at h; split_ifs at h <;> omega

/-! ### three points of a circle -/

theorem sum_sq_zero {a b : ℝ} (h : a ^ 2 + b ^ 2 = 0) : a = 0 ∧ b = 0 := by
  constructor
  · have : a ^ 2 = 0 := by linarith [sq_nonneg a, sq_nonneg b]
    simpa using this
  · have : b ^ 2 = 0 := by linarith [sq_nonneg a, sq_nonneg b]
    simpa using this

theorem denom_ne {c a b d : ℝ × ℝ} {r : ℝ} (ha : On c r a) (hb : On c r b) (hd : On c r d) (hab : a ≠ b)
    (hbd : b ≠ d) (hda : d ≠ a) :
    -(d.1 - b.1) * (b.2 - a.2) - (d.2 - b.2) * -(b.1 - a.1) ≠ 0 := by
  intro h
  unfold On at ha hb hd
  obtain ⟨a1, a2⟩ := a; obtain ⟨b1, b2⟩ := b; obtain ⟨d1, d2⟩ := d; obtain ⟨c1, c2⟩ := c
  simp only at ha hb hd h
  set e1 := b1 - a1 with he1
  set e2 := b2 - a2 with he2
  set f1 := d1 - b1 with hf1
  set f2 := d2 - b2 with hf2
  have hE : 2 * (e1 * (b1 - c1) + e2 * (b2 - c2)) = e1 ^ 2 + e2 ^ 2 := by rw [he1, he2]; linear_combination hb - ha
  have hF : 2 * (f1 * (b1 - c1) + f2 * (b2 - c2)) = -(f1 ^ 2 + f2 ^ 2) := by rw [hf1, hf2]; linear_combination hd - hb
  have hx : e1 * f2 = e2 * f1 := by linear_combination h
  have hE0 : e1 ^ 2 + e2 ^ 2 ≠ 0 := by
    intro h0
    obtain ⟨h1, h2⟩ := sum_sq_zero h0
    exact hab (Prod.ext (by simp only; linarith) (by simp only; linarith))
  have hF0 : f1 ^ 2 + f2 ^ 2 ≠ 0 := by
    intro h0
    obtain ⟨h1, h2⟩ := sum_sq_zero h0
    exact hbd (Prod.ext (by simp only; linarith) (by simp only; linarith))
  have k1 : (e1 * f1 + e2 * f2) = -(f1 ^ 2 + f2 ^ 2) := by
    have : (e1 ^ 2 + e2 ^ 2) * ((e1 * f1 + e2 * f2) + (f1 ^ 2 + f2 ^ 2)) = 0 := by
      linear_combination (e1 ^ 2 + e2 ^ 2) * hF - (e1 * f1 + e2 * f2) * hE
        + 2 * (e1 * (b2 - c2) - e2 * (b1 - c1)) * (-hx)
    rcases mul_eq_zero.1 this with h | h
    · exact absurd h hE0
    · linarith
  have k2 : (e1 * f1 + e2 * f2) = -(e1 ^ 2 + e2 ^ 2) := by
    have : (f1 ^ 2 + f2 ^ 2) * ((e1 * f1 + e2 * f2) + (e1 ^ 2 + e2 ^ 2)) = 0 := by
      linear_combination (e1 * f1 + e2 * f2) * hF - (f1 ^ 2 + f2 ^ 2) * hE
        + 2 * (f1 * (b2 - c2) - f2 * (b1 - c1)) * (-hx)
    rcases mul_eq_zero.1 this with h | h
    · exact absurd h hF0
    · linarith
  have h0 : (e1 + f1) ^ 2 + (e2 + f2) ^ 2 = 0 := by linear_combination k1 + k2
  obtain ⟨h1, h2⟩ := sum_sq_zero h0
  exact hda (Prod.ext (by simp only; linarith) (by simp only; linarith))

theorem inter_exact {pts : List (ℝ × ℝ)} {i : ℕ} {c : ℝ × ℝ} {r : ℝ} (ha : On c r (pt pts i))
    (hb : On c r (pt pts (nxt pts.length i))) (hd : On c r (pt pts (nxt pts.length (nxt pts.length i))))
    (hab : pt pts i ≠ pt pts (nxt pts.length i))
    (hbd : pt pts (nxt pts.length i) ≠ pt pts (nxt pts.length (nxt pts.length i)))
    (hda : pt pts (nxt pts.length (nxt pts.length i)) ≠ pt pts i) : inter pts i = c := by
  have h0 := denom_ne ha hb hd hab hbd hda
  unfold inter s1 mid normal
  dsimp only
  rw [if_pos h0]
  unfold On at ha hb hd
  generalize pt pts (nxt pts.length (nxt pts.length i)) = d at *
  generalize pt pts (nxt pts.length i) = b at *
  generalize pt pts i = a at *
  obtain ⟨a1, a2⟩ := a; obtain ⟨b1, b2⟩ := b; obtain ⟨d1, d2⟩ := d; obtain ⟨c1, c2⟩ := c
  simp only at ha hb hd h0 ⊢
  have hg : (c1 - (a1 + b1) / 2) * (b1 - a1) + (c2 - (a2 + b2) / 2) * (b2 - a2) = 0 := by linear_combination (ha - hb) / 2
  have hh : (c1 - (b1 + d1) / 2) * (d1 - b1) + (c2 - (b2 + d2) / 2) * (d2 - b2) = 0 := by linear_combination (hb - hd) / 2
  refine Prod.ext ?_ ?_
  · simp only
    rw [mul_div_assoc', add_comm, ← eq_sub_iff_add_eq, div_eq_iff h0]
    linear_combination (-(d2 - b2)) * hg + (b2 - a2) * hh
  · simp only
    rw [mul_div_assoc', add_comm, ← eq_sub_iff_add_eq, div_eq_iff h0]
    linear_combination (d1 - b1) * hg - (b1 - a1) * hh

/-! ### averages -/

theorem mean_const (l : List ℝ) (v : ℝ) (h0 : l ≠ []) (h : ∀ x ∈ l, x = v) : meanL l = v := by
  have hl : (l.length : ℝ) ≠ 0 := by simpa using h0
  rw [List.eq_replicate_of_mem h, meanL]
  simp only [List.sum_replicate, nsmul_eq_mul, List.length_replicate]
  field_simp

/-- If more than half of the values are equal, that is the median. -/
theorem median_majority (l : List ℝ) (v : ℝ) (h : l.length < 2 * l.count v) : median l = v := by
  have key : ∀ k, l.length - l.count v ≤ k → k < l.count v → (pySort id l).getD k 0 = v := by
    intro k h1 h2
    have hp := Lemmas.perm_pySort (id : ℝ → ℝ) l
    have hs := Lemmas.sorted_pySort (id : ℝ → ℝ) l
    have hc : (pySort id l).count v = l.count v := hp.count_eq v
    have hlen : (pySort id l).length = l.length := Lemmas.length_pySort _ l
    have hcl : l.count v ≤ l.length := List.count_le_length
    generalize pySort id l = s at *
    have hk : k < s.length := by omega
    rw [getD_lt _ _ hk]
    rw [List.pairwise_iff_getElem] at hs
    have hsplit : ∀ m, s.count v = (s.take m).count v + (s.drop m).count v := fun m => by
      rw [← List.count_append, List.take_append_drop]
    rcases lt_trichotomy s[k] v with hlt | he | hgt
    · exfalso
      have hz : (s.take (k + 1)).count v = 0 := by
        rw [List.count_eq_zero]
        intro hm
        obtain ⟨j, hj, hjv⟩ := List.mem_iff_getElem.1 hm
        rw [List.getElem_take] at hjv
        rw [List.length_take] at hj
        have : s[j] ≤ s[k] := by
          rcases Nat.lt_or_ge j k with hjk | hjk
          · exact hs j k (by omega) hk hjk
          · have : j = k := by omega
            subst this; exact le_rfl
        linarith
      have := hsplit (k + 1)
      have h3 : (s.drop (k + 1)).count v ≤ (s.drop (k + 1)).length := List.count_le_length
      rw [List.length_drop] at h3
      omega
    · exact he
    · exfalso
      have hz : (s.drop k).count v = 0 := by
        rw [List.count_eq_zero]
        intro hm
        obtain ⟨j, hj, hjv⟩ := List.mem_iff_getElem.1 hm
        rw [List.getElem_drop] at hjv
        rw [List.length_drop] at hj
        have : s[k] ≤ s[k + j] := by
          rcases Nat.eq_zero_or_pos j with hj0 | hj0
          · subst hj0; exact le_rfl
          · exact hs k (k + j) hk (by omega) (by omega)
        linarith
      have := hsplit k
      have h3 : (s.take k).count v ≤ (s.take k).length := List.count_le_length
      rw [List.length_take] at h3
      omega
  have hcl : l.count v ≤ l.length := List.count_le_length
  unfold median
  dsimp only
  rw [key _ (by omega) (by omega), key _ (by omega) (by omega)]
  ring

theorem count_range_card (n : ℕ) (p : ℕ → Prop) [DecidablePred p] :
    (List.range n).countP (fun i => decide (p i)) = ((Finset.range n).filter p).card := by
  rw [List.countP_eq_length_filter]; rfl

/-- Number of points off the circle. -/
noncomputable def off (c : ℝ × ℝ) (r : ℝ) (pts : List (ℝ × ℝ)) : ℕ :=
  haveI := Classical.decPred (On c r)
  pts.countP fun p => ¬ On c r p

/-- The points on the circle are different from each other. -/
def Distinct (c : ℝ × ℝ) (r : ℝ) (pts : List (ℝ × ℝ)) : Prop :=
  pts.Pairwise fun a b => On c r a → On c r b → a ≠ b

theorem off_card (c : ℝ × ℝ) (r : ℝ) (pts : List (ℝ × ℝ)) [DecidablePred (fun i => ¬ On c r (pt pts i))] :
    ((Finset.range pts.length).filter fun i => ¬ On c r (pt pts i)).card = off c r pts := by
  classical
  rw [← count_range_card, off]
  have e : pts = (List.range pts.length).map (pt pts) := by
    apply List.ext_getElem (by simp)
    intro i h1 h2
    rw [List.getElem_map, List.getElem_range, pt, getD_lt _ _ h1]
  conv_rhs => rw [e, List.countP_map]
  congr 1
  funext i
  simp

theorem distinct_get {c : ℝ × ℝ} {r : ℝ} {pts : List (ℝ × ℝ)} (h : Distinct c r pts) {i j : ℕ}
    (hi : i < pts.length) (hj : j < pts.length) (hij : i ≠ j) (h1 : On c r (pt pts i)) (h2 : On c r (pt pts j)) :
    pt pts i ≠ pt pts j := by
  unfold Distinct at h
  rw [List.pairwise_iff_getElem] at h
  unfold pt at *
  rw [getD_lt _ _ hi] at *
  rw [getD_lt _ _ hj] at *
  rcases Nat.lt_or_gt_of_ne hij with hlt | hlt
  · exact h i j hi hj hlt h1 h2
  · exact (h j i hj hi hlt h2 h1).symm

theorem inter_good {c : ℝ × ℝ} {r : ℝ} {pts : List (ℝ × ℝ)} (hn : 4 ≤ pts.length) (h : Distinct c r pts) {i : ℕ}
    (hi : i < pts.length) (h1 : On c r (pt pts i)) (h2 : On c r (pt pts (nxt pts.length i)))
    (h3 : On c r (pt pts (nxt pts.length (nxt pts.length i)))) : inter pts i = c :=
  inter_exact h1 h2 h3 (distinct_get h hi (nxt_lt hi) (nxt_ne hn hi).symm h1 h2)
    (distinct_get h (nxt_lt hi) (nxt_lt (nxt_lt hi)) (nxt_ne hn (nxt_lt hi)).symm h2 h3)
    (distinct_get h (nxt_lt (nxt_lt hi)) hi (nxt_nxt_ne hn hi) h3 h1)

theorem inter_count {c : ℝ × ℝ} {r : ℝ} {pts : List (ℝ × ℝ)} (hn : 4 ≤ pts.length) (h : Distinct c r pts)
    (f : ℝ × ℝ → ℝ) :
    pts.length ≤ (((List.range pts.length).map (inter pts)).map f).count (f c) + 3 * off c r pts := by
  classical
  set n := pts.length with hnn
  set B := (Finset.range n).filter fun i => ¬ On c r (pt pts i) with hB
  have hBc : B.card = off c r pts := off_card c r pts
  set B1 := (Finset.range n).filter fun i => nxt n i ∈ B with hB1
  set B2 := (Finset.range n).filter fun i => nxt n i ∈ B1 with hB2
  have c1 : B1.card ≤ B.card := by
    apply Finset.card_le_card_of_injOn (nxt n)
    · intro i hi; exact (Finset.mem_filter.1 hi).2
    · intro i hi j hj hij
      exact nxt_inj (by omega) (by simpa using (Finset.mem_filter.1 hi).1) (by simpa using (Finset.mem_filter.1 hj).1) hij
  have c2 : B2.card ≤ B1.card := by
    apply Finset.card_le_card_of_injOn (nxt n)
    · intro i hi; exact (Finset.mem_filter.1 hi).2
    · intro i hi j hj hij
      exact nxt_inj (by omega) (by simpa using (Finset.mem_filter.1 hi).1) (by simpa using (Finset.mem_filter.1 hj).1) hij
  have hcount : (((List.range n).map (inter pts)).map f).count (f c) =
      ((Finset.range n).filter fun i => f (inter pts i) = f c).card := by
    rw [← count_range_card, List.map_map, List.count, List.countP_map]
    congr 1
  rw [hcount]
  have hsub : Finset.range n ⊆ ((Finset.range n).filter fun i => f (inter pts i) = f c) ∪ (B ∪ (B1 ∪ B2)) := by
    intro i hi
    have hin : i < n := by simpa using hi
    by_cases h1 : i ∈ B
    · simp [h1]
    by_cases h2 : i ∈ B1
    · simp [h2]
    by_cases h3 : i ∈ B2
    · simp [h3]
    have h2' : nxt n i ∉ B := fun hm => h2 (Finset.mem_filter.2 ⟨hi, hm⟩)
    have h3' : nxt n i ∉ B1 := fun hm => h3 (Finset.mem_filter.2 ⟨hi, hm⟩)
    have hi2 : nxt n i ∈ Finset.range n := by simpa using nxt_lt hin
    have hi3 : nxt n (nxt n i) ∈ Finset.range n := by simpa using nxt_lt (nxt_lt hin)
    have h3'' : nxt n (nxt n i) ∉ B := fun hm => h3' (Finset.mem_filter.2 ⟨hi2, hm⟩)
    have good : ∀ j ∈ Finset.range n, j ∉ B → On c r (pt pts j) := by
      intro j hj hjB
      by_contra hc
      exact hjB (Finset.mem_filter.2 ⟨hj, hc⟩)
    apply Finset.mem_union_left
    refine Finset.mem_filter.2 ⟨hi, ?_⟩
    rw [inter_good hn h hin (good i hi h1) (good _ hi2 h2') (good _ hi3 h3'')]
  have := Finset.card_le_card hsub
  rw [Finset.card_range] at this
  have u1 := Finset.card_union_le ((Finset.range n).filter fun i => f (inter pts i) = f c) (B ∪ (B1 ∪ B2))
  have u2 := Finset.card_union_le B (B1 ∪ B2)
  have u3 := Finset.card_union_le B1 B2
  omega

theorem radii_count {c : ℝ × ℝ} {r : ℝ} (hr : 0 ≤ r) (pts : List (ℝ × ℝ)) :
    (radii pts c).count r + off c r pts = pts.length := by
  classical
  have e : (radii pts c).count r = pts.countP fun p => decide (On c r p) := by
    rw [radii, List.count, List.countP_map]
    congr 1
    funext p
    simp only [Function.comp, hypot_D, beq_eq_decide, decide_eq_decide]
    exact D_on hr
  rw [e, off, List.length_eq_countP_add_countP (fun p => decide (On c r p))]
  congr 1
  apply congrFun; congr 1
  funext p; simp

/-- The median fit is exact whatever the off-circle points are, if they are fewer than a sixth. -/
theorem fast_median {c : ℝ × ℝ} {r : ℝ} (hr : 0 ≤ r) {pts : List (ℝ × ℝ)} (hn : 4 ≤ pts.length)
    (hd : Distinct c r pts) (ho : 6 * off c r pts < pts.length) : fastFit true pts = .ok (c, r) := by
  unfold fastFit
  rw [if_neg (by omega)]
  dsimp only
  rw [if_pos rfl]
  have h1 : median (((List.range pts.length).map (inter pts)).map Prod.fst) = c.1 := by
    apply median_majority
    have := inter_count hn hd Prod.fst
    simp only [List.length_map, List.length_range]
    omega
  have h2 : median (((List.range pts.length).map (inter pts)).map Prod.snd) = c.2 := by
    apply median_majority
    have := inter_count hn hd Prod.snd
    simp only [List.length_map, List.length_range]
    omega
  rw [h1, h2]
  have h3 : median (radii pts c) = r := by
    apply median_majority
    have := radii_count (c := c) hr pts
    have : (radii pts c).length = pts.length := by simp [radii]
    omega
  rw [show ((c.1, c.2) : ℝ × ℝ) = c from rfl, h3]

theorem fast_mean {c : ℝ × ℝ} {r : ℝ} (hr : 0 ≤ r) {pts : List (ℝ × ℝ)} (hn : 4 ≤ pts.length)
    (hd : pts.Nodup) (ho : ∀ p ∈ pts, On c r p) : fastFit false pts = .ok (c, r) := by
  have hD : Distinct c r pts := hd.imp fun h _ _ => h
  have hp : ∀ i < pts.length, On c r (pt pts i) := by
    intro i hi; unfold pt; rw [getD_lt _ _ hi]; exact ho _ (List.getElem_mem _)
  have hi : ∀ i < pts.length, inter pts i = c := fun i hi =>
    inter_good hn hD hi (hp _ hi) (hp _ (nxt_lt hi)) (hp _ (nxt_lt (nxt_lt hi)))
  have hne : pts ≠ [] := by rintro rfl; simp at hn
  unfold fastFit
  rw [if_neg (by omega)]
  dsimp only
  rw [if_neg (by simp)]
  have h1 : meanL (((List.range pts.length).map (inter pts)).map Prod.fst) = c.1 := by
    apply mean_const
    · simpa using hne
    · simp only [List.map_map, List.mem_map, List.mem_range, Function.comp]
      rintro x ⟨i, hl, rfl⟩; rw [hi i hl]
  have h2 : meanL (((List.range pts.length).map (inter pts)).map Prod.snd) = c.2 := by
    apply mean_const
    · simpa using hne
    · simp only [List.map_map, List.mem_map, List.mem_range, Function.comp]
      rintro x ⟨i, hl, rfl⟩; rw [hi i hl]
  rw [h1, h2]
  have h3 : meanL (radii pts c) = r := by
    apply mean_const
    · simpa [radii] using hne
    · simp only [radii, List.mem_map]
      rintro x ⟨p, hm, rfl⟩; exact (D_on hr).2 (ho p hm)
  rw [show ((c.1, c.2) : ℝ × ℝ) = c from rfl, h3]

end Verif.Props.Circ

namespace Verif.Props.Circ
open Verif.Py Verif.Model.Circles
open Verif.Model.MatchPositioners (median)

/-- What the least squares routine minimises: the scatter of the distances from `c`. -/
noncomputable def scatter (pts : List (ℝ × ℝ)) (c : ℝ × ℝ) : ℝ :=
  (pts.map fun p => (D p c - (pts.map fun q => D q c).sum / pts.length) ^ 2).sum

/-- The least squares routine never ends at a worse place than where it started. -/
def Descends (opt : List (ℝ × ℝ) → ℝ × ℝ → ℝ × ℝ) : Prop := ∀ pts s, scatter pts (opt pts s) ≤ scatter pts s

theorem scatter_zero {pts : List (ℝ × ℝ)} {c : ℝ × ℝ} (h : scatter pts c ≤ 0) :
    ∀ p ∈ pts, D p c = meanL (radii pts c) := by
  intro p hp
  have hnn : ∀ x ∈ pts.map fun p => (D p c - (pts.map fun q => D q c).sum / pts.length) ^ 2, (0 : ℝ) ≤ x := by
    simp only [List.mem_map]; rintro x ⟨q, _, rfl⟩; positivity
  have h0 : scatter pts c = 0 := le_antisymm h (List.sum_nonneg hnn)
  have h1 := (List.sum_nonneg hnn)
  have hle := List.single_le_sum hnn _ (List.mem_map.2 ⟨p, hp, rfl⟩)
  unfold scatter at h0
  rw [h0] at hle
  have h2 : (D p c - (pts.map fun q => D q c).sum / pts.length) ^ 2 = 0 := le_antisymm hle (by positivity)
  have h3 : D p c - (pts.map fun q => D q c).sum / pts.length = 0 := by simpa using h2
  have e : radii pts c = pts.map fun q => D q c := rfl
  rw [meanL, e, List.length_map]
  linarith

theorem scatter_exact {pts : List (ℝ × ℝ)} {c : ℝ × ℝ} {r : ℝ} (hr : 0 ≤ r) (h0 : pts ≠ []) (h : ∀ p ∈ pts, On c r p) :
    scatter pts c = 0 := by
  have hm : meanL (radii pts c) = r := by
    apply mean_const
    · simpa [radii] using h0
    · simp only [radii, List.mem_map]
      rintro x ⟨p, hm, rfl⟩; exact (D_on hr).2 (h p hm)
  have e : radii pts c = pts.map fun q => D q c := rfl
  rw [meanL, e, List.length_map] at hm
  unfold scatter
  rw [hm]
  apply List.sum_eq_zero
  simp only [List.mem_map]
  rintro x ⟨p, hp, rfl⟩
  rw [(D_on hr).2 (h p hp)]; ring

theorem sqrt_eq_D_nonneg (p c : ℝ × ℝ) : 0 ≤ D p c := Real.sqrt_nonneg _

/-- Four different points determine their circle. -/
theorem centre_unique {pts : List (ℝ × ℝ)} {c c' : ℝ × ℝ} {r r' : ℝ} (hr : 0 ≤ r) (hr' : 0 ≤ r')
    (hn : 4 ≤ pts.length) (hd : pts.Nodup) (h : ∀ p ∈ pts, On c r p) (h' : ∀ p ∈ pts, On c' r' p) : c' = c := by
  have h1 := fast_mean hr hn hd h
  rw [fast_mean hr' hn hd h'] at h1
  exact (Prod.mk.inj (Except.ok.inj h1)).1

theorem fit_exact {opt : List (ℝ × ℝ) → ℝ × ℝ → ℝ × ℝ} (ho : Descends opt) {pts : List (ℝ × ℝ)} {c : ℝ × ℝ} {r : ℝ}
    (hr : 0 ≤ r) (hn : 4 ≤ pts.length) (hd : pts.Nodup) (h : ∀ p ∈ pts, On c r p) :
    fitCircle opt pts = if 1 ≤ r ∧ r ≤ 5 then .ok (c, r) else .error .valueError := by
  have hne : pts ≠ [] := by rintro rfl; simp at hn
  unfold fitCircle
  rw [fast_mean hr hn hd h]
  show (if _ then _ else _) = _
  dsimp only
  by_cases hrr : 1 ≤ r ∧ r ≤ 5
  · rw [if_neg (by push Not; exact hrr), if_pos hrr]
    have hz := scatter_zero ((ho pts c).trans (scatter_exact hr hne h).le)
    have hm0 : 0 ≤ meanL (radii pts (opt pts c)) := by
      obtain ⟨p, hp⟩ := List.exists_mem_of_ne_nil _ hne
      rw [← hz p hp]; exact Real.sqrt_nonneg _
    have hc : opt pts c = c := centre_unique hr hm0 hn hd h fun p hp => (D_on hm0).1 (hz p hp)
    rw [hc]
    have hm : meanL (radii pts c) = r := by
      apply mean_const
      · simpa [radii] using hne
      · simp only [radii, List.mem_map]
        rintro x ⟨p, hm, rfl⟩; exact (D_on hr).2 (h p hm)
    rw [hm, if_neg (by push Not; exact hrr)]
  · rw [if_neg hrr, if_pos (by by_contra hc; push Not at hc; exact hrr hc)]

/-! ### masks -/

theorem select_all (pts : List (ℝ × ℝ)) : select pts (List.replicate pts.length true) = pts := by
  unfold select
  induction pts with
  | nil => rfl
  | cons p l ih =>
    rw [List.length_cons, List.replicate_succ, List.zip_cons_cons, List.filter_cons_of_pos rfl, List.map_cons, ih]

theorem select_set (pts : List (ℝ × ℝ)) (w : ℕ) :
    select pts ((List.replicate pts.length true).set w false) = pts.eraseIdx w := by
  induction pts generalizing w with
  | nil => simp [select]
  | cons p l ih =>
    rw [List.length_cons, List.replicate_succ]
    cases w with
    | zero =>
      rw [List.set_cons_zero, List.eraseIdx_cons_zero]
      show select (p :: l) _ = _
      have : select (p :: l) (false :: List.replicate l.length true) = select l (List.replicate l.length true) := by
        unfold select; rw [List.zip_cons_cons, List.filter_cons_of_neg (by simp)]
      rw [this, select_all]
    | succ w =>
      rw [List.set_cons_succ, List.eraseIdx_cons_succ, ← ih w]
      unfold select
      rw [List.zip_cons_cons, List.filter_cons_of_pos rfl, List.map_cons]

theorem count_mask (n w : ℕ) (hw : w < n) : (((List.replicate n true).set w false).filter id).length = n - 1 := by
  induction n generalizing w with
  | zero => omega
  | succ n ih =>
    rw [List.replicate_succ]
    cases w with
    | zero => simp
    | succ w =>
      rw [List.set_cons_succ, List.filter_cons_of_pos rfl, List.length_cons, ih w (by omega)]; omega

/-- Distance of `p` from the circle. -/
noncomputable def miss (c : ℝ × ℝ) (r : ℝ) (p : ℝ × ℝ) : ℝ := |D p c - r|

theorem miss_zero {c p : ℝ × ℝ} {r : ℝ} (hr : 0 ≤ r) : miss c r p = 0 ↔ On c r p := by
  unfold miss
  rw [abs_eq_zero, sub_eq_zero, D_on hr]

theorem res_eq (pts : List (ℝ × ℝ)) (c : ℝ × ℝ) (r : ℝ) :
    ((radii pts c).map fun v => |v - r|) = pts.map (miss c r) := by
  unfold radii; rw [List.map_map]; rfl

theorem median_res {c : ℝ × ℝ} {r : ℝ} (hr : 0 ≤ r) {pts : List (ℝ × ℝ)} (ho : 2 * off c r pts < pts.length) :
    median (pts.map (miss c r)) = 0 := by
  classical
  apply median_majority
  have e : (pts.map (miss c r)).count 0 = pts.countP fun p => decide (On c r p) := by
    rw [List.count, List.countP_map]
    congr 1
    funext p
    simp only [Function.comp, beq_eq_decide, decide_eq_decide]
    exact miss_zero hr
  have h2 : pts.length = (pts.countP fun p => decide (On c r p)) + off c r pts := by
    rw [off, List.length_eq_countP_add_countP (fun p => decide (On c r p))]
    congr 1
    apply congrFun; congr 1
    funext p; simp
  rw [e, List.length_map]
  omega

theorem off_erase {c : ℝ × ℝ} {r : ℝ} {pts : List (ℝ × ℝ)} {w : ℕ} (hw : w < pts.length) (hb : ¬ On c r pts[w]) :
    off c r (pts.eraseIdx w) + 1 = off c r pts := by
  classical
  have hp : pts.Perm (pts[w] :: pts.eraseIdx w) := (List.getElem_cons_eraseIdx_perm hw).symm
  unfold off
  rw [hp.countP_eq, List.countP_cons_of_pos (by simpa using hb)]

theorem robust_loop {c : ℝ × ℝ} {r : ℝ} (hr : 0 ≤ r) {pts : List (ℝ × ℝ)} (hd : Distinct c r pts)
    (ho : 6 * off c r pts < pts.length) {w : ℕ} (hw : w < pts.length) {nsig minerr : ℝ} (hm : 0 < minerr)
    (hmax : argmaxReal (pts.map (miss c r)) = w) (hbig : minerr ≤ miss c r pts[w]) :
    ∀ k last, (k = 0 → last = (c, r)) →
      robustLoop pts nsig minerr k last ((List.replicate pts.length true).set w false) =
        .ok (.done (c, r) ((List.replicate pts.length true).set w false))
  | 0, last, h => by rw [h rfl]; rfl
  | k + 1, last, _ => by
    have hb : ¬ On c r pts[w] := by
      rw [← miss_zero hr]; intro h0; linarith
    have h1 : 1 ≤ off c r pts := by have := off_erase hw hb; omega
    have hf : fastFit true (pts.eraseIdx w) = .ok (c, r) := by
      apply fast_median hr
      · rw [List.length_eraseIdx_of_lt hw]; omega
      · exact List.Pairwise.sublist (List.eraseIdx_sublist _ _) hd
      · have := off_erase hw hb
        rw [List.length_eraseIdx_of_lt hw]; omega
    unfold robustLoop
    rw [select_set, hf]
    show (if _ then _ else _) = _
    dsimp only
    rw [res_eq, median_res hr (by omega), hmax, getD_lt _ _ (by simpa using hw), List.getElem_map,
      if_neg (by push Not; constructor <;> linarith), List.set_set, if_neg]
    · exact robust_loop hr hd ho hw hm hmax hbig k (c, r) fun _ => rfl
    · rw [count_mask _ _ hw]; omega

end Verif.Props.Circ

namespace Verif.Props
open Verif.Py Verif.Model.Circles Circ
open Verif.Model.MatchPositioners (median)

/-- The direct estimate, with mean or with median, returns centre and radius of the circle for any
four or more different points on it, in whatever order and however small the arc. -/
theorem C38_fast_exact (useMedian : Bool) (pts : List (ℝ × ℝ)) (c : ℝ × ℝ) (r : ℝ) (hr : 0 ≤ r)
    (hn : 4 ≤ pts.length) (hd : pts.Nodup) (h : ∀ p ∈ pts, On c r p) : fastFit useMedian pts = .ok (c, r) := by
  cases useMedian
  · exact fast_mean hr hn hd h
  · apply fast_median hr hn (hd.imp fun h _ _ => h)
    have : off c r pts = 0 := by
      classical
      unfold off
      rw [List.countP_eq_zero]
      intro p hp; simpa using h p hp
    omega

/-- So does `fit_circle`, if the least squares routine does not make the fit worse, provided the
radius is between 1 and 5; otherwise it raises `ValueError`. -/
theorem C38_fit_exact (opt : List (ℝ × ℝ) → ℝ × ℝ → ℝ × ℝ) (ho : Descends opt) (pts : List (ℝ × ℝ)) (c : ℝ × ℝ)
    (r : ℝ) (hr : 0 ≤ r) (hn : 4 ≤ pts.length) (hd : pts.Nodup) (h : ∀ p ∈ pts, On c r p) :
    fitCircle opt pts = if 1 ≤ r ∧ r ≤ 5 then .ok (c, r) else .error .valueError :=
  fit_exact ho hr hn hd h

/-- Whatever the points: a centre is only returned together with the mean distance from it, that
distance is between 1 and 5, and the fit is at least as good as the direct estimate, which must have
had such a radius too. -/
theorem C38_fit_range (opt : List (ℝ × ℝ) → ℝ × ℝ → ℝ × ℝ) (ho : Descends opt) (pts : List (ℝ × ℝ)) (c : ℝ × ℝ)
    (r : ℝ) (h : fitCircle opt pts = .ok (c, r)) :
    1 ≤ r ∧ r ≤ 5 ∧ r = (pts.map fun p => D p c).sum / pts.length ∧
    ∃ c0 r0, fastFit false pts = .ok (c0, r0) ∧ 1 ≤ r0 ∧ r0 ≤ 5 ∧ c = opt pts c0 ∧ scatter pts c ≤ scatter pts c0 := by
  unfold fitCircle at h
  cases hf : fastFit false pts with
  | error e => rw [hf] at h; cases h
  | ok f =>
    rw [hf] at h
    change (if _ then _ else _) = _ at h
    split_ifs at h with h1 h2
    push Not at h1 h2
    obtain ⟨rfl, rfl⟩ := Prod.mk.inj (Except.ok.inj h)
    refine ⟨h2.1, h2.2, ?_, f.1, f.2, rfl, h1.1, h1.2, rfl, ho _ _⟩
    unfold meanL radii
    rw [List.length_map]; rfl

/-- With two or three points the direct estimate is not a circle through them: its centre is their
centre of mass. -/
theorem C38_three_points (pts : List (ℝ × ℝ)) (h2 : 2 ≤ pts.length) (h3 : pts.length ≤ 3) :
    ∃ r, fastFit false pts =
      .ok (((pts.map Prod.fst).sum / pts.length, (pts.map Prod.snd).sum / pts.length), r) := by
  have hnx : ∀ i < pts.length, nxt pts.length i = i := by
    intro i hi; rw [nxt_eq h2 hi]; split_ifs <;> omega
  have hin : ∀ i < pts.length, inter pts i = pt pts i := by
    intro i hi
    unfold inter s1 mid normal
    dsimp only
    rw [hnx i hi, hnx i hi]
    refine Prod.ext ?_ ?_ <;> simp only <;> ring
  have he : (List.range pts.length).map (inter pts) = pts := by
    apply List.ext_getElem (by simp)
    intro i h1 h2
    rw [List.getElem_map, List.getElem_range, hin i h2, pt, getD_lt _ _ h2]
  unfold fastFit
  rw [if_neg (by omega)]
  dsimp only
  rw [if_neg (by simp), he]
  refine ⟨meanL (radii pts (meanL (pts.map Prod.fst), meanL (pts.map Prod.snd))), ?_⟩
  simp only [meanL, List.length_map]

/-- `fit_circle` can therefore reject three points of an acceptable circle, whatever the least
squares routine does: radius 3, three points on an arc of 23 degrees. -/
theorem C38_three_points_rejected (opt : List (ℝ × ℝ) → ℝ × ℝ → ℝ × ℝ) :
    ∃ pts : List (ℝ × ℝ), pts.length = 3 ∧ pts.Nodup ∧ (∀ p ∈ pts, On (0, 0) 3 p) ∧
      fitCircle opt pts = .error .valueError := by
  refine ⟨[(3, 0), (297 / 101, 60 / 101), (297 / 101, -60 / 101)], rfl, ?_, ?_, ?_⟩
  · simp only [List.nodup_cons, List.mem_cons, Prod.mk.injEq, List.not_mem_nil, or_false, not_or]
    norm_num
  · simp only [List.mem_cons, List.not_mem_nil, or_false, On]
    rintro p (rfl | rfl | rfl) <;> norm_num
  · have hnx : ∀ i < 3, nxt 3 i = i := by decide
    unfold fitCircle fastFit
    rw [if_neg (by simp)]
    dsimp only
    rw [if_neg (by simp)]
    have he : (List.range 3).map (inter [(3, 0), (297 / 101, 60 / 101), (297 / 101, -60 / 101)]) =
        [(3, 0), (297 / 101, 60 / 101), (297 / 101, -60 / 101)] := by
      have hin : ∀ i < 3, inter [(3, 0), (297 / 101, 60 / 101), (297 / 101, -60 / 101)] i =
          pt [(3, 0), (297 / 101, 60 / 101), (297 / 101, -60 / 101)] i := by
        intro i hi
        unfold inter s1 mid normal
        dsimp only
        rw [show ([(3, 0), (297 / 101, 60 / 101), (297 / 101, -60 / 101)] : List (ℝ × ℝ)).length = 3 from rfl,
          hnx i hi, hnx i hi]
        refine Prod.ext ?_ ?_ <;> simp only <;> ring
      rw [show List.range 3 = [0, 1, 2] from rfl]
      simp only [List.map_cons, List.map_nil]
      rw [hin 0 (by omega), hin 1 (by omega), hin 2 (by omega)]
      rfl
    rw [show ([(3, 0), (297 / 101, 60 / 101), (297 / 101, -60 / 101)] : List (ℝ × ℝ)).length = 3 from rfl, he]
    show (if _ then _ else _) = _
    rw [if_pos]
    left
    simp only [meanL, radii, List.map_cons, List.map_nil, List.sum_cons, List.sum_nil, List.length_cons,
      List.length_nil, hypot]
    have b : ∀ x y : ℝ, x ^ 2 + y ^ 2 < 1 → Real.sqrt (x ^ 2 + y ^ 2) < 1 := by
      intro x y h
      rw [show (1 : ℝ) = Real.sqrt 1 by simp]
      exact Real.sqrt_lt_sqrt (by positivity) h
    have b1 := b (3 - (3 + (297 / 101 + (297 / 101 + 0))) / ((0 + 1 + 1 + 1 : ℕ) : ℝ))
      (0 - (0 + (60 / 101 + (-60 / 101 + 0))) / ((0 + 1 + 1 + 1 : ℕ) : ℝ)) (by norm_num)
    have b2 := b (297 / 101 - (3 + (297 / 101 + (297 / 101 + 0))) / ((0 + 1 + 1 + 1 : ℕ) : ℝ))
      (60 / 101 - (0 + (60 / 101 + (-60 / 101 + 0))) / ((0 + 1 + 1 + 1 : ℕ) : ℝ)) (by norm_num)
    have b3 := b (297 / 101 - (3 + (297 / 101 + (297 / 101 + 0))) / ((0 + 1 + 1 + 1 : ℕ) : ℝ))
      (-60 / 101 - (0 + (60 / 101 + (-60 / 101 + 0))) / ((0 + 1 + 1 + 1 : ℕ) : ℝ)) (by norm_num)
    rw [div_lt_one (by norm_num)]
    refine lt_of_lt_of_le (add_lt_add b1 (add_lt_add b2 (add_lt_add_of_lt_of_le b3 le_rfl))) (by norm_num)

/-- `robust_fit_circle` with fewer than one sixth of the points off the circle and at least one of
them off by `minerr` or more: exactly the worst point is rejected, and all other points are used in
the final fit, also those that are off the circle. -/
theorem C38_robust (opt : List (ℝ × ℝ) → ℝ × ℝ → ℝ × ℝ) (pts : List (ℝ × ℝ)) (c : ℝ × ℝ) (r : ℝ) (hr : 0 ≤ r)
    (hd : Distinct c r pts) (ho : 6 * off c r pts < pts.length) (nsig minerr : ℝ) (hm : 0 < minerr) (w : ℕ)
    (hw : w < pts.length) (hbig : minerr ≤ miss c r pts[w])
    (hworst : ∀ p ∈ pts, miss c r p ≤ miss c r pts[w]) (hfirst : ∀ j (hj : j < w), miss c r pts[j] < miss c r pts[w]) :
    robustFitCircle opt pts nsig minerr =
      .ok ((fitCircle opt (pts.eraseIdx w)).toOption.getD (c, r), (List.replicate pts.length true).set w false) := by
  have hmax : argmaxReal (pts.map (miss c r)) = w := by
    obtain ⟨h1, h2, h3⟩ := Lemmas.argmaxReal_spec (pts.map (miss c r)) (by rintro h; simp at h; subst h; simp at hw)
    set k := argmaxReal (pts.map (miss c r))
    have hk : k < pts.length := by simpa using h1
    have hg : ∀ j, j < pts.length → ∀ (hj : j < pts.length), (pts.map (miss c r)).getD j 0 = miss c r pts[j] := by
      intro j _ hj; rw [getD_lt _ _ (by simpa using hj), List.getElem_map]
    rcases lt_trichotomy k w with h | h | h
    · have a := hfirst k h
      have b := h2 _ (List.mem_map.2 ⟨pts[w], List.getElem_mem _, rfl⟩)
      rw [hg k hk hk] at b; linarith
    · exact h
    · have a := h3 w h
      rw [hg k hk hk, hg w hw hw] at a
      have := hworst pts[k] (List.getElem_mem _); linarith
  have hb : ¬ On c r pts[w] := by rw [← miss_zero hr]; intro h0; linarith
  have h1 : 1 ≤ off c r pts := by have := off_erase hw hb; omega
  have hl : robustLoop pts nsig minerr 12 ((0, 0), 0) (List.replicate pts.length true) =
      .ok (.done (c, r) ((List.replicate pts.length true).set w false)) := by
    unfold robustLoop
    rw [select_all, fast_median hr (by omega) hd ho]
    show (if _ then _ else _) = _
    dsimp only
    rw [res_eq, median_res hr (by omega), hmax, getD_lt _ _ (by simpa using hw), List.getElem_map,
      if_neg (by push Not; constructor <;> linarith), if_neg]
    · exact robust_loop hr hd ho hw hm hmax hbig 11 (c, r) fun _ => rfl
    · rw [count_mask _ _ hw]; omega
  unfold robustFitCircle
  rw [hl]
  show (match fitCircle opt (select pts _) with | .ok g => _ | .error .valueError => _ | .error e => _) = _
  rw [select_set]
  cases hf : fitCircle opt (pts.eraseIdx w) with
  | ok g => rfl
  | error e =>
    have : e = .valueError := by
      unfold fitCircle fastFit at hf
      rw [if_neg (by rw [List.length_eraseIdx_of_lt hw]; omega)] at hf
      change (if _ then _ else _) = _ at hf
      dsimp only at hf
      split_ifs at hf <;> exact (Except.error.inj hf).symm
    subst this; rfl

/-- A single wrong point among seven or more different points of a circle, off by `minerr` or more:
`robust_fit_circle` returns the circle and rejects exactly that point.  Radii outside 1 to 5 are
accepted here. -/
theorem C38_robust_one_outlier (opt : List (ℝ × ℝ) → ℝ × ℝ → ℝ × ℝ) (hopt : Descends opt) (pts : List (ℝ × ℝ))
    (c : ℝ × ℝ) (r : ℝ) (hr : 0 ≤ r) (hd : pts.Nodup) (hn : 7 ≤ pts.length) (nsig minerr : ℝ) (hm : 0 < minerr) (w : ℕ)
    (hw : w < pts.length) (hbig : minerr ≤ miss c r pts[w]) (hon : ∀ j (hj : j < pts.length), j ≠ w → On c r pts[j]) :
    robustFitCircle opt pts nsig minerr = .ok ((c, r), (List.replicate pts.length true).set w false) := by
  have hb : ¬ On c r pts[w] := by rw [← miss_zero hr]; intro h0; linarith
  have hon' : ∀ p ∈ pts.eraseIdx w, On c r p := by
    intro p hp
    obtain ⟨j, hj, rfl⟩ := List.mem_iff_getElem.1 hp
    rw [List.length_eraseIdx_of_lt hw] at hj
    rw [List.getElem_eraseIdx]
    split_ifs with h
    · exact hon _ _ (by omega)
    · exact hon _ _ (by omega)
  have ho1 : off c r pts = 1 := by
    classical
    rw [← off_erase hw hb]
    have : off c r (pts.eraseIdx w) = 0 := by
      unfold off
      rw [List.countP_eq_zero]
      intro p hp; simpa using hon' p hp
    omega
  have hz : ∀ j (hj : j < pts.length), j ≠ w → miss c r pts[j] = 0 := fun j hj h => (miss_zero hr).2 (hon j hj h)
  rw [C38_robust opt pts c r hr (hd.imp fun h _ _ => h) (by omega) nsig minerr hm w hw hbig]
  · rw [fit_exact hopt hr (by rw [List.length_eraseIdx_of_lt hw]; omega)
      (List.Nodup.sublist (List.eraseIdx_sublist _ _) hd) hon']
    split_ifs <;> rfl
  · intro p hp
    obtain ⟨j, hj, rfl⟩ := List.mem_iff_getElem.1 hp
    by_cases h : j = w
    · subst h; exact le_rfl
    · rw [hz j hj h]; linarith
  · intro j hj
    rw [hz j (by omega) (by omega)]; linarith

/-- Of two or more wrong points only one is ever rejected: another point that is off the circle by
any amount up to that of the worst one stays marked as good. -/
theorem C38_robust_second_outlier (opt : List (ℝ × ℝ) → ℝ × ℝ → ℝ × ℝ) (pts : List (ℝ × ℝ)) (c : ℝ × ℝ) (r : ℝ)
    (hr : 0 ≤ r) (hd : Distinct c r pts) (ho : 6 * off c r pts < pts.length) (nsig minerr : ℝ) (hm : 0 < minerr)
    (w v : ℕ) (hw : w < pts.length) (hv : v < pts.length) (hvw : v ≠ w) (hbig : minerr ≤ miss c r pts[v])
    (hworst : ∀ j (hj : j < pts.length), j ≠ w → miss c r pts[j] < miss c r pts[w]) :
    ∃ g m, robustFitCircle opt pts nsig minerr = .ok (g, m) ∧ m[v]? = some true ∧ m[w]? = some false := by
  refine ⟨_, _, C38_robust opt pts c r hr hd ho nsig minerr hm w hw (hbig.trans (hworst v hv hvw).le) ?_
    (fun j hj => hworst j (by omega) (by omega)), ?_, ?_⟩
  · intro p hp
    obtain ⟨j, hj, rfl⟩ := List.mem_iff_getElem.1 hp
    by_cases h : j = w
    · subst h; exact le_rfl
    · exact (hworst j hj h).le
  · rw [List.getElem?_set_ne (Ne.symm hvw)]; simp [hv]
  · rw [List.getElem?_set_self (by simpa using hw)]

/-- Points on a circle up to less than `minerr` (fewer than a sixth not exactly): nothing rejected. -/
theorem C38_robust_clean (opt : List (ℝ × ℝ) → ℝ × ℝ → ℝ × ℝ) (pts : List (ℝ × ℝ)) (c : ℝ × ℝ) (r : ℝ) (hr : 0 ≤ r)
    (hd : Distinct c r pts) (hn : 4 ≤ pts.length) (ho : 6 * off c r pts < pts.length) (nsig minerr : ℝ)
    (hsmall : ∀ p ∈ pts, miss c r p < minerr) :
    robustFitCircle opt pts nsig minerr =
      .ok ((fitCircle opt pts).toOption.getD (c, r), List.replicate pts.length true) := by
  have hne : pts.map (miss c r) ≠ [] := by rintro h; simp at h; subst h; simp at hn
  obtain ⟨h1, -, -⟩ := Lemmas.argmaxReal_spec _ hne
  have hl : robustLoop pts nsig minerr 12 ((0, 0), 0) (List.replicate pts.length true) =
      .ok (.done (c, r) (List.replicate pts.length true)) := by
    unfold robustLoop
    rw [select_all, fast_median hr (by omega) hd ho]
    show (if _ then _ else _) = _
    dsimp only
    rw [res_eq, getD_lt _ _ h1, List.getElem_map, if_pos]
    right; exact hsmall _ (List.getElem_mem _)
  unfold robustFitCircle
  rw [hl]
  show (match fitCircle opt (select pts _) with | .ok g => _ | .error .valueError => _ | .error e => _) = _
  rw [select_all]
  cases hf : fitCircle opt pts with
  | ok g => rfl
  | error e =>
    have : e = .valueError := by
      unfold fitCircle fastFit at hf
      rw [if_neg (by omega)] at hf
      change (if _ then _ else _) = _ at hf
      dsimp only at hf
      split_ifs at hf <;> exact (Except.error.inj hf).symm
    subst this; rfl

/-- Three different points determine their circle: if the least squares routine reaches scatter
zero, the result is right for three points as well. -/
theorem C38_zero_scatter (opt : List (ℝ × ℝ) → ℝ × ℝ → ℝ × ℝ) (pts : List (ℝ × ℝ)) (c c' : ℝ × ℝ) (r r' : ℝ)
    (hr : 0 ≤ r) (hn : 3 ≤ pts.length) (hd : pts.Nodup) (h : ∀ p ∈ pts, On c r p)
    (hf : fitCircle opt pts = .ok (c', r')) (h0 : scatter pts c' = 0) : c' = c ∧ r' = r := by
  have hr' : r' = meanL (radii pts c') := by
    unfold fitCircle at hf
    cases hq : fastFit false pts with
    | error e => rw [hq] at hf; cases hf
    | ok f =>
      rw [hq] at hf
      change (if _ then _ else _) = _ at hf
      split_ifs at hf with h1 h2
      obtain ⟨rfl, rfl⟩ := Prod.mk.inj (Except.ok.inj hf)
      rfl
  have hz := scatter_zero h0.le
  obtain ⟨a, b, d, l, rfl⟩ : ∃ a b d l, pts = a :: b :: d :: l := by
    match pts, hn with
    | a :: b :: d :: l, _ => exact ⟨a, b, d, l, rfl⟩
  have hm0 : 0 ≤ meanL (radii (a :: b :: d :: l) c') := by
    rw [← hz a (by simp)]; exact Real.sqrt_nonneg _
  have on' : ∀ p ∈ a :: b :: d :: l, On c' r' p := fun p hp => by
    rw [hr']; exact (D_on hm0).1 (hz p hp)
  simp only [List.nodup_cons, List.mem_cons, not_or] at hd
  have hne := denom_ne (h a (by simp)) (h b (by simp)) (h d (by simp)) hd.1.1 hd.2.1.1 (Ne.symm hd.1.2.1)
  have ha := h a (by simp)
  have hb := h b (by simp)
  have hdd := h d (by simp)
  have ha' := on' a (by simp)
  have hb' := on' b (by simp)
  have hd' := on' d (by simp)
  unfold On at ha hb hdd ha' hb' hd'
  have e1 : (c'.1 - c.1) * (b.1 - a.1) + (c'.2 - c.2) * (b.2 - a.2) = 0 := by
    linear_combination (ha' - hb' - ha + hb) / 2
  have e2 : (c'.1 - c.1) * (d.1 - b.1) + (c'.2 - c.2) * (d.2 - b.2) = 0 := by
    linear_combination (hb' - hd' - hb + hdd) / 2
  have x1 : (c'.1 - c.1) * (-(d.1 - b.1) * (b.2 - a.2) - (d.2 - b.2) * -(b.1 - a.1)) = 0 := by
    linear_combination (d.2 - b.2) * e1 - (b.2 - a.2) * e2
  have x2 : (c'.2 - c.2) * (-(d.1 - b.1) * (b.2 - a.2) - (d.2 - b.2) * -(b.1 - a.1)) = 0 := by
    linear_combination (b.1 - a.1) * e2 - (d.1 - b.1) * e1
  have hc : c' = c := by
    refine Prod.ext ?_ ?_
    · rcases mul_eq_zero.1 x1 with h | h
      · linarith
      · exact absurd h hne
    · rcases mul_eq_zero.1 x2 with h | h
      · linarith
      · exact absurd h hne
  refine ⟨hc, ?_⟩
  rw [hr', ← hz a (by simp), hc]
  exact (D_on hr).2 (h a (by simp))

/-- Turning by the angle and scaling by the factor of the complex number `α + iβ`, then shifting. -/
def Circ.sim (α β : ℝ) (v : ℝ × ℝ) (p : ℝ × ℝ) : ℝ × ℝ := (α * p.1 - β * p.2 + v.1, β * p.1 + α * p.2 + v.2)

/-- The direct estimate does not depend on the coordinate system: for shifted, turned and scaled
points it is the shifted, turned and scaled circle, for any points. -/
theorem C38_similarity (pts : List (ℝ × ℝ)) (c : ℝ × ℝ) (r α β : ℝ) (v : ℝ × ℝ) (hs : α ^ 2 + β ^ 2 ≠ 0)
    (h : fastFit false pts = .ok (c, r)) :
    fastFit false (pts.map (sim α β v)) = .ok (sim α β v c, Real.sqrt (α ^ 2 + β ^ 2) * r) := by
  unfold fastFit at h ⊢
  rw [List.length_map]
  by_cases h0 : pts.length = 0
  · rw [if_pos h0] at h; cases h
  rw [if_neg h0] at h ⊢
  dsimp only at h ⊢
  rw [if_neg (by simp)] at h ⊢
  obtain ⟨hc, hr⟩ := Prod.mk.inj (Except.ok.inj h)
  have hpt : ∀ i < pts.length, pt (pts.map (sim α β v)) i = sim α β v (pt pts i) := by
    intro i hi
    unfold pt
    rw [getD_lt _ _ (by simpa using hi), getD_lt _ _ hi, List.getElem_map]
  have hin : ∀ i < pts.length, inter (pts.map (sim α β v)) i = sim α β v (inter pts i) := by
    intro i hi
    unfold inter s1 mid normal
    dsimp only
    rw [List.length_map, hpt i hi, hpt _ (nxt_lt hi), hpt _ (nxt_lt (nxt_lt hi))]
    generalize pt pts i = a
    generalize pt pts (nxt pts.length i) = b
    generalize pt pts (nxt pts.length (nxt pts.length i)) = d
    obtain ⟨a1, a2⟩ := a; obtain ⟨b1, b2⟩ := b; obtain ⟨d1, d2⟩ := d; obtain ⟨v1, v2⟩ := v
    unfold sim
    simp only
    have ed : -(α * d1 - β * d2 + v1 - (α * b1 - β * b2 + v1)) * (β * b1 + α * b2 + v2 - (β * a1 + α * a2 + v2)) -
        (β * d1 + α * d2 + v2 - (β * b1 + α * b2 + v2)) * -(α * b1 - β * b2 + v1 - (α * a1 - β * a2 + v1)) =
        (α ^ 2 + β ^ 2) * (-(d1 - b1) * (b2 - a2) - (d2 - b2) * -(b1 - a1)) := by ring
    rw [ed]
    by_cases hz : -(d1 - b1) * (b2 - a2) - (d2 - b2) * -(b1 - a1) = 0
    · rw [hz, mul_zero, if_neg (by simp), if_neg (by simp)]
      refine Prod.ext ?_ ?_ <;> simp only <;> ring
    · rw [if_pos (mul_ne_zero hs hz), if_pos hz]
      have en : ∀ q, q = (α ^ 2 + β ^ 2) * (-(d1 - b1) * ((b1 + d1) / 2) - (d2 - b2) * ((b2 + d2) / 2) -
          -(d1 - b1) * ((a1 + b1) / 2) + (d2 - b2) * ((a2 + b2) / 2)) →
          q / ((α ^ 2 + β ^ 2) * (-(d1 - b1) * (b2 - a2) - (d2 - b2) * -(b1 - a1))) =
          (-(d1 - b1) * ((b1 + d1) / 2) - (d2 - b2) * ((b2 + d2) / 2) -
          -(d1 - b1) * ((a1 + b1) / 2) + (d2 - b2) * ((a2 + b2) / 2)) /
          (-(d1 - b1) * (b2 - a2) - (d2 - b2) * -(b1 - a1)) := by
        intro q hq
        rw [hq, mul_div_mul_left _ _ hs]
      rw [en _ (by ring)]
      refine Prod.ext ?_ ?_ <;> simp only <;> ring
  have hl : (pts.length : ℝ) ≠ 0 := by exact_mod_cast h0
  have hmean : ∀ l : List (ℝ × ℝ), (l.length : ℝ) ≠ 0 →
      (meanL ((l.map (sim α β v)).map Prod.fst), meanL ((l.map (sim α β v)).map Prod.snd)) =
      sim α β v (meanL (l.map Prod.fst), meanL (l.map Prod.snd)) := by
    intro l hl
    have s1 : ∀ l : List (ℝ × ℝ), ((l.map (sim α β v)).map Prod.fst).sum =
        α * (l.map Prod.fst).sum - β * (l.map Prod.snd).sum + l.length * v.1 := by
      intro l
      induction l with
      | nil => simp
      | cons p l ih =>
        simp only [List.map_cons, List.sum_cons, List.length_cons] at ih ⊢
        rw [ih, sim]; push_cast; ring
    have s2 : ∀ l : List (ℝ × ℝ), ((l.map (sim α β v)).map Prod.snd).sum =
        β * (l.map Prod.fst).sum + α * (l.map Prod.snd).sum + l.length * v.2 := by
      intro l
      induction l with
      | nil => simp
      | cons p l ih =>
        simp only [List.map_cons, List.sum_cons, List.length_cons] at ih ⊢
        rw [ih, sim]; push_cast; ring
    unfold meanL
    rw [s1, s2]
    simp only [List.length_map, sim]
    refine Prod.ext ?_ ?_ <;> simp only <;> field_simp
  have hi2 : (List.range pts.length).map (inter (pts.map (sim α β v))) =
      ((List.range pts.length).map (inter pts)).map (sim α β v) := by
    rw [List.map_map]
    apply List.map_congr_left
    intro i hi; exact hin i (by simpa using hi)
  rw [hi2, hmean _ (by simpa using hl), hc]
  congr 2
  rw [hc] at hr
  rw [← hr]
  unfold meanL radii
  rw [List.map_map, List.length_map, List.length_map, ← mul_div_assoc, ← List.sum_map_mul_left]
  congr 3
  funext p
  simp only [Function.comp, sim, hypot]
  rw [← Real.sqrt_mul (by positivity)]
  congr 1
  ring

/-! ### examples -/

/-- Seven points of the circle of radius 5 and one two millimetres outside. -/
example : ∃ pts : List (ℝ × ℝ), pts.Nodup ∧ 7 ≤ pts.length ∧
    ∃ hw : 7 < pts.length, (0.1 : ℝ) ≤ miss (0, 0) 5 pts[7] ∧ ∀ j (hj : j < pts.length), j ≠ 7 → On (0, 0) 5 pts[j] := by
  refine ⟨[(5, 0), (4, 3), (3, 4), (0, 5), (-3, 4), (-4, 3), (-5, 0), (0, -7)], ?_, by simp, by simp, ?_, ?_⟩
  · simp only [List.nodup_cons, List.mem_cons, Prod.mk.injEq, List.not_mem_nil, or_false, not_or]
    norm_num
  · show (0.1 : ℝ) ≤ |Real.sqrt ((0 - 0) ^ 2 + (-7 - 0) ^ 2) - 5|
    rw [show ((0:ℝ) - 0) ^ 2 + (-7 - 0) ^ 2 = 7 ^ 2 by norm_num, Real.sqrt_sq (by norm_num)]
    norm_num [abs_of_pos]
  · intro j hj hne
    simp only [List.length_cons, List.length_nil] at hj
    unfold On
    interval_cases j <;> first | (norm_num at hne; done) | norm_num

/-- Staying where it is: a least squares routine that does not make the fit worse. -/
example : Descends fun _ s => s := fun _ _ => le_rfl

/-- Twelve points of the circle of radius 5, two points that are off by 2 and by 3: the one that is off
by 2 stays. -/
example (opt : List (ℝ × ℝ) → ℝ × ℝ → ℝ × ℝ) : ∃ pts : List (ℝ × ℝ), ∃ g m,
    robustFitCircle opt pts 4 0.1 = .ok (g, m) ∧ m[12]? = some true ∧ m[13]? = some false := by
  let on : List (ℝ × ℝ) := [(5, 0), (4, 3), (3, 4), (0, 5), (-3, 4), (-4, 3), (-5, 0), (-4, -3), (-3, -4), (0, -5),
    (3, -4), (4, -3)]
  have hon : ∀ p ∈ on, On (0, 0) 5 p := by
    simp only [on, List.mem_cons, List.not_mem_nil, or_false, On]
    rintro p (rfl | rfl | rfl | rfl | rfl | rfl | rfl | rfl | rfl | rfl | rfl | rfl) <;> norm_num
  have m2 : miss (0, 0) 5 (0, 7) = 2 := by
    show |Real.sqrt ((0 - 0) ^ 2 + (7 - 0) ^ 2) - 5| = 2
    rw [show ((0:ℝ) - 0) ^ 2 + (7 - 0) ^ 2 = 7 ^ 2 by norm_num, Real.sqrt_sq (by norm_num)]
    norm_num
  have m3 : miss (0, 0) 5 (0, 8) = 3 := by
    show |Real.sqrt ((0 - 0) ^ 2 + (8 - 0) ^ 2) - 5| = 3
    rw [show ((0:ℝ) - 0) ^ 2 + (8 - 0) ^ 2 = 8 ^ 2 by norm_num, Real.sqrt_sq (by norm_num)]
    norm_num
  have hoff : off (0, 0) 5 (on ++ [(0, 7), (0, 8)]) ≤ 2 := by
    classical
    unfold off
    rw [List.countP_append, List.countP_eq_zero.2 (fun p hp => by simpa using hon p hp)]
    exact (Nat.zero_add _).le.trans List.countP_le_length
  have hnd : (on ++ [(0, 7), (0, 8)]).Nodup := by
    simp only [on, List.cons_append, List.nil_append, List.nodup_cons, List.mem_cons, Prod.mk.injEq,
      List.not_mem_nil, or_false, not_or]
    norm_num
  refine ⟨on ++ [(0, 7), (0, 8)], C38_robust_second_outlier opt (on ++ [(0, 7), (0, 8)]) (0, 0) 5 (by norm_num)
    (hnd.imp fun h _ _ => h) ?_ 4 0.1 (by norm_num) 13 12 (by simp [on]) (by simp [on]) (by norm_num) ?_ ?_⟩
  · have : (on ++ [((0:ℝ), (7:ℝ)), (0, 8)]).length = 14 := rfl
    omega
  · show (0.1 : ℝ) ≤ miss (0, 0) 5 (0, 7)
    rw [m2]; norm_num
  · intro j hj hne
    show _ < miss (0, 0) 5 (0, 8)
    rw [m3]
    have hj' : j < 14 := hj
    by_cases h12 : j = 12
    · subst h12
      show miss (0, 0) 5 (0, 7) < 3
      rw [m2]; norm_num
    · have hlt : j < on.length := by show j < 12; omega
      rw [List.getElem_append_left hlt, (miss_zero (by norm_num)).2 (hon _ (List.getElem_mem _))]
      norm_num

end Verif.Props
