import Verif.Model.FitCases
import Mathlib.Data.List.Basic
import Mathlib.Data.List.GetD
import Mathlib.Tactic.Linarith
import Mathlib.Tactic.IntervalCases
import Mathlib.Tactic.NormNum

namespace Verif.Props
open Verif.Py Verif.Model.FitCases

namespace Fcs

/-- Specification of a row index: the number of rows before time `t`, at most the last index. -/
noncomputable def idx (dates : List ℝ) (t : ℝ) : ℕ := min (dates.countP fun d => decide (d < t)) (dates.length - 1)

theorem idx_lt (dates : List ℝ) (h : dates ≠ []) (t : ℝ) : idx dates t < dates.length := by
  have : 0 < dates.length := List.length_pos_iff.2 h
  unfold idx
  omega

theorem idx_mono (dates : List ℝ) {s t : ℝ} (h : s ≤ t) : idx dates s ≤ idx dates t := by
  unfold idx
  have : dates.countP (fun d => decide (d < s)) ≤ dates.countP (fun d => decide (d < t)) :=
    List.countP_mono_left fun x _ hx => by
      simp only [decide_eq_true_eq] at hx ⊢
      exact hx.trans_le h
  omega

theorem findIdx_sorted (t : ℝ) : ∀ l : List ℝ, l.Pairwise (· ≤ ·) → (∃ d ∈ l, t ≤ d) →
    l.findIdx? (fun d => decide (d ≥ t)) = some (l.countP fun d => decide (d < t)) := by
  intro l
  induction l with
  | nil => rintro _ ⟨d, hd, _⟩; simp at hd
  | cons a l ih =>
    intro hl hex
    rw [List.pairwise_cons] at hl
    rw [List.findIdx?_cons]
    by_cases ha : t ≤ a
    · have h0 : l.countP (fun d => decide (d < t)) = 0 := by
        rw [List.countP_eq_zero]
        intro b hb
        have := hl.1 b hb
        simp; linarith
      simp [ha, h0]
    · have hex' : ∃ d ∈ l, t ≤ d := by
        obtain ⟨d, hd, htd⟩ := hex
        rcases List.mem_cons.1 hd with h | h
        · exact absurd (h ▸ htd) ha
        · exact ⟨d, h, htd⟩
      have := ih hl.2 hex'
      simp only [ge_iff_le, ha, decide_false, Bool.false_eq_true, if_false]
      simp only [ge_iff_le] at this
      rw [this]
      simp [not_le.1 ha]

end Fcs

/-- `_row_idx_for_time` on a time-sorted table: the number of rows before the given time, limited to
the last row; IndexError only for an empty table. -/
theorem C40_row_index (dates : List ℝ) (hs : dates.Pairwise (· ≤ ·)) (t : ℝ) :
    rowIdx dates t = if dates = [] then .error .indexError else .ok (Fcs.idx dates t) := by
  unfold rowIdx
  by_cases hn : dates = []
  · subst hn; simp
  rw [if_neg hn]
  obtain ⟨a, l, rfl⟩ := List.exists_cons_of_ne_nil hn
  rw [List.getLast?_eq_some_getLast hn, List.head?_cons]
  dsimp only
  have hlast : ∀ x ∈ a :: l, x ≤ (a :: l).getLast hn := by
    intro x hx
    obtain ⟨k, hk, rfl⟩ := List.getElem_of_mem hx
    rw [List.getLast_eq_getElem]
    rcases Nat.lt_or_ge k ((a :: l).length - 1) with h | h
    · exact List.pairwise_iff_getElem.1 hs k _ hk (by omega) h
    · have : k = (a :: l).length - 1 := by omega
      subst this; exact le_rfl
  split_ifs with h1 h2
  · have : (a :: l).countP (fun d => decide (d < t)) = 0 := by
      rw [List.countP_eq_zero]
      intro x hx
      rcases List.mem_cons.1 hx with h | h
      · subst h; simp; linarith
      · have := (List.pairwise_cons.1 hs).1 x h
        simp; linarith
    unfold Fcs.idx
    rw [this]; simp
  · have : (a :: l).countP (fun d => decide (d < t)) = (a :: l).length := by
      rw [List.countP_eq_length]
      intro x hx
      have := hlast x hx
      simp; linarith
    unfold Fcs.idx
    rw [this]; simp
  · have := Fcs.findIdx_sorted t (a :: l) hs ⟨_, List.getLast_mem hn, not_lt.1 h2⟩
    rw [this]
    have hlt : (a :: l).countP (fun d => decide (d < t)) < (a :: l).length := by
      rw [List.countP_lt_length_iff]
      exact ⟨_, List.getLast_mem hn, by simpa using h2⟩
    unfold Fcs.idx
    dsimp only
    congr 1
    omega

namespace Fcs

/-- Widths of consecutive datum dates add up. -/
theorem backSum_eq (idxs : List ℕ) (i j : ℕ) (hj : j + 1 < idxs.length) (hi : i ≤ j + 1) :
    backSum (List.zipWith (fun s f : ℕ => (f : ℤ) - s) idxs.dropLast idxs.tail) i j =
      (idxs.getD (j + 1) 0 : ℤ) - idxs.getD i 0 := by
  obtain ⟨k, hk⟩ : ∃ k, j + 1 - i = k := ⟨_, rfl⟩
  induction k generalizing i with
  | zero =>
    have : i = j + 1 := by omega
    subst this
    unfold backSum
    rw [List.drop_eq_nil_of_le (by simp)]
    simp
  | succ k ih =>
    unfold backSum at ih ⊢
    have hlen : (List.zipWith (fun s f : ℕ => (f : ℤ) - s) idxs.dropLast idxs.tail).length = idxs.length - 1 := by
      simp
    rw [List.drop_eq_getElem_cons (by rw [List.length_take, hlen]; omega), List.sum_cons,
      ih (i + 1) (by omega) (by omega)]
    simp only [List.getElem_take, List.getElem_zipWith, List.getElem_dropLast, List.getElem_tail]
    rw [List.getD_eq_getElem _ _ (show i + 1 < idxs.length by omega),
      List.getD_eq_getElem _ _ (show i < idxs.length by omega)]
    ring

theorem expandBack_spec (widths : List ℤ) (w : ℤ) (j : ℕ) : ∀ i,
    expandBack widths w j i ≤ i ∧
      (∀ i', expandBack widths w j i < i' → i' ≤ i → ¬ backSum widths i' j > w) ∧
      (expandBack widths w j i = 0 ∨ backSum widths (expandBack widths w j i) j > w) := by
  intro i
  induction i with
  | zero => exact ⟨le_rfl, fun i' h1 h2 => by simp [expandBack] at h1; omega, Or.inl rfl⟩
  | succ i ih =>
    simp only [expandBack]
    split_ifs with h
    · exact ⟨le_rfl, fun i' h1 h2 => by omega, Or.inr h⟩
    · refine ⟨by omega, fun i' h1 h2 => ?_, ih.2.2⟩
      rcases Nat.lt_or_ge i i' with h' | h'
      · have : i' = i + 1 := by omega
        rw [this]; exact h
      · exact ih.2.1 i' h1 h'

/-- The window ending at datum `j + 1`, in terms of row indices `x` of the `m` datum dates. -/
def isWindow (x : ℕ → ℕ) (m : ℕ) (w : ℤ) (c : Case) : Prop :=
  ∃ j, j + 1 < m ∧ c.final = x (j + 1) ∧
    ((∃ i ≤ j, c.start = x i ∧ (x (j + 1) : ℤ) - x i > w ∧ ∀ i', i < i' → i' ≤ j → (x (j + 1) : ℤ) - x i' ≤ w) ∨
     (j + 2 = m ∧ c.start = x 0 ∧ ∀ i' ≤ j, (x (j + 1) : ℤ) - x i' ≤ w))

theorem foldl_spec (starts : List ℕ) (widths : List ℤ) (w : ℤ) (l : List (ℕ × ℕ)) : ∀ init : List Case, init.Nodup →
    (l.foldl (caseStep starts widths w) init).Nodup ∧
    ∀ c, c ∈ l.foldl (caseStep starts widths w) init ↔ c ∈ init ∨ ∃ p ∈ l,
      ¬ (¬ (backSum widths (expandBack widths w p.2 p.2) p.2 > w) ∧ (p.2 : ℤ) < (widths.length : ℤ) - 1) ∧
      c = { start := starts.getD (expandBack widths w p.2 p.2) 0, final := (p.1 : ℤ) } := by
  induction l with
  | nil => intro init h; exact ⟨h, by simp⟩
  | cons p l ih =>
    intro init h
    rw [List.foldl_cons]
    have hstep : (caseStep starts widths w init p).Nodup ∧ ∀ c, c ∈ caseStep starts widths w init p ↔ c ∈ init ∨
        (¬ (¬ (backSum widths (expandBack widths w p.2 p.2) p.2 > w) ∧ (p.2 : ℤ) < (widths.length : ℤ) - 1) ∧
          c = { start := starts.getD (expandBack widths w p.2 p.2) 0, final := (p.1 : ℤ) }) := by
      unfold caseStep
      dsimp only
      by_cases h1 : ¬ (backSum widths (expandBack widths w p.2 p.2) p.2 > w) ∧ (p.2 : ℤ) < (widths.length : ℤ) - 1
      · rw [if_pos h1]
        exact ⟨h, fun c => ⟨Or.inl, fun h' => h'.resolve_right fun h'' => h''.1 h1⟩⟩
      · rw [if_neg h1]
        by_cases h2 : ({ start := starts.getD (expandBack widths w p.2 p.2) 0, final := (p.1 : ℤ) } : Case) ∈ init
        · rw [if_pos h2]
          refine ⟨h, fun c => ⟨Or.inl, ?_⟩⟩
          rintro (hc | ⟨_, rfl⟩)
          · exact hc
          · exact h2
        · rw [if_neg h2]
          refine ⟨?_, fun c => ?_⟩
          · rw [List.nodup_append]
            refine ⟨h, by simp, ?_⟩
            intro a ha b hb hab
            have hb' := List.mem_singleton.1 hb
            exact h2 (hb' ▸ hab ▸ ha)
          · rw [List.mem_append, List.mem_singleton]
            simp only [h1, not_false_eq_true, true_and]
    obtain ⟨g1, g2⟩ := ih _ hstep.1
    refine ⟨g1, fun c => ?_⟩
    rw [g2, hstep.2]
    simp only [List.mem_cons, exists_eq_or_imp, or_assoc]

theorem many_spec (idxs : List ℕ) (w : ℤ) : (manyDatum idxs.dropLast idxs.tail w).Nodup ∧
    ∀ c, c ∈ manyDatum idxs.dropLast idxs.tail w ↔ isWindow (fun k => idxs.getD k 0) idxs.length w c := by
  unfold manyDatum
  obtain ⟨g1, g2⟩ := foldl_spec idxs.dropLast (List.zipWith (fun s f : ℕ => (f : ℤ) - s) idxs.dropLast idxs.tail) w
    idxs.tail.zipIdx [] List.nodup_nil
  refine ⟨g1, fun c => ?_⟩
  rw [g2]
  simp only [List.not_mem_nil, false_or]
  have hlen : (List.zipWith (fun s f : ℕ => (f : ℤ) - s) idxs.dropLast idxs.tail).length = idxs.length - 1 := by simp
  set W := List.zipWith (fun s f : ℕ => (f : ℤ) - s) idxs.dropLast idxs.tail with hW
  constructor
  · rintro ⟨⟨f, j⟩, hp, hcond, rfl⟩
    rw [List.mem_zipIdx_iff_getElem?, List.getElem?_tail] at hp
    dsimp only at hp hcond
    have hj : j + 1 < idxs.length := (List.getElem?_eq_some_iff.1 hp).1
    have hf : idxs.getD (j + 1) 0 = f := by rw [List.getD_eq_getElem?_getD, hp]; rfl
    obtain ⟨e1, e2, e3⟩ := expandBack_spec W w j j
    set I := expandBack W w j j with hI
    have hst : idxs.dropLast.getD I 0 = idxs.getD I 0 := by
      rw [List.getD_eq_getElem _ _ (show I < idxs.dropLast.length by rw [List.length_dropLast]; omega),
        List.getD_eq_getElem _ _ (show I < idxs.length by omega), List.getElem_dropLast]
    refine ⟨j, hj, by dsimp only; rw [hf], ?_⟩
    dsimp only
    rw [hst]
    by_cases hsat : backSum W I j > w
    · left
      refine ⟨I, e1, rfl, ?_, fun i' h1 h2 => ?_⟩
      · rw [← backSum_eq idxs I j hj (by omega)]; exact hsat
      · have := e2 i' h1 h2
        rw [hW, backSum_eq idxs i' j hj (by omega)] at this
        exact not_lt.1 this
    · right
      have hI0 : I = 0 := e3.resolve_right hsat
      refine ⟨?_, by rw [hI0], fun i' h => ?_⟩
      · by_contra hne
        refine hcond ⟨hsat, ?_⟩
        rw [hlen]; omega
      · rcases Nat.eq_zero_or_pos i' with h0 | h0
        · rw [h0]
          rw [hI0, hW, backSum_eq idxs 0 j hj (by omega)] at hsat
          exact not_lt.1 hsat
        · have := e2 i' (by omega) h
          rw [hW, backSum_eq idxs i' j hj (by omega)] at this
          exact not_lt.1 this
  · rintro ⟨j, hj, hfin, hcase⟩
    dsimp only at hfin hcase
    have hp : (idxs.getD (j + 1) 0, j) ∈ idxs.tail.zipIdx := by
      rw [List.mem_zipIdx_iff_getElem?, List.getElem?_tail]
      dsimp only
      rw [List.getD_eq_getElem _ _ hj, List.getElem?_eq_getElem hj]
    refine ⟨_, hp, ?_⟩
    dsimp only
    obtain ⟨e1, e2, e3⟩ := expandBack_spec W w j j
    set I := expandBack W w j j with hI
    have hI1 : I < idxs.length - 1 := by clear hcase; omega
    have hst : idxs.dropLast.getD I 0 = idxs.getD I 0 := by
      rw [List.getD_eq_getElem _ _ (show I < idxs.dropLast.length by rw [List.length_dropLast]; exact hI1),
        List.getD_eq_getElem _ _ (show I < idxs.length from lt_of_lt_of_le hI1 (Nat.sub_le _ _)), List.getElem_dropLast]
    have hbs : ∀ i ≤ j, backSum W i j = (idxs.getD (j + 1) 0 : ℤ) - idxs.getD i 0 := fun i hi => by
      rw [hW, backSum_eq idxs i j hj (Nat.le_succ_of_le hi)]
    rw [hst]
    rcases hcase with ⟨i, hi, hs, hgt, hmax⟩ | ⟨hm, hs, hle⟩
    · have hIi : I = i := by
        rcases lt_trichotomy I i with h | h | h
        · exact absurd (by rw [hbs i hi]; exact hgt) (e2 i h hi)
        · exact h
        · exfalso
          have h1 := hmax I h e1
          rcases e3 with h0 | h0
          · omega
          · rw [hbs I e1] at h0; omega
      rw [hIi]
      refine ⟨fun h => h.1 (by rw [hbs i hi]; exact hgt), ?_⟩
      cases c; simp_all
    · have hI0 : I = 0 := by
        refine e3.resolve_right fun h => ?_
        have := hle I e1
        rw [hbs I e1] at h; omega
      rw [hI0]
      refine ⟨fun h => ?_, ?_⟩
      · have := h.2
        rw [hlen] at this; omega
      · cases c; simp_all

theorem mapM_rowIdx (dates : List ℝ) (hs : dates.Pairwise (· ≤ ·)) (hn : dates ≠ []) (datum : List ℝ) :
    datum.mapM (rowIdx dates) = .ok (datum.map (idx dates)) := by
  induction datum with
  | nil => rfl
  | cons a l ih =>
    rw [List.mapM_cons, ih, C40_row_index dates hs, if_neg hn]
    rfl

end Fcs

/-- The windows for any number of datum dates but one: the function never fails, gives each window
once, and the windows are exactly: for every datum but the first, the shortest run of periods ending
there that holds more than `w` row steps, or, for the last datum only, everything since the first
datum when no run is long enough. -/
theorem C40_windows (dates : List ℝ) (hs : dates.Pairwise (· ≤ ·)) (hn : dates ≠ []) (datum : List ℝ)
    (hd : datum.length ≠ 1) (w : ℤ) :
    ∃ cs, defineCases dates datum w = .ok cs ∧ cs.Nodup ∧
      ∀ c, c ∈ cs ↔ ∃ j, ∃ hj : j + 1 < datum.length, c.final = Fcs.idx dates datum[j + 1] ∧
        ((∃ i, ∃ hi : i ≤ j, c.start = Fcs.idx dates datum[i] ∧
            (Fcs.idx dates datum[j + 1] : ℤ) - Fcs.idx dates datum[i] > w ∧
            ∀ i', i < i' → ∀ hi' : i' ≤ j, (Fcs.idx dates datum[j + 1] : ℤ) - Fcs.idx dates datum[i'] ≤ w) ∨
         (j + 2 = datum.length ∧ c.start = Fcs.idx dates datum[0] ∧
            ∀ i', ∀ hi' : i' ≤ j, (Fcs.idx dates datum[j + 1] : ℤ) - Fcs.idx dates datum[i'] ≤ w)) := by
  obtain ⟨h1, h2⟩ := Fcs.many_spec (datum.map (Fcs.idx dates)) w
  refine ⟨manyDatum (datum.map (Fcs.idx dates)).dropLast (datum.map (Fcs.idx dates)).tail w, ?_, h1, fun c => ?_⟩
  · unfold defineCases
    rw [if_neg hd, Fcs.mapM_rowIdx dates hs hn]
    rfl
  · rw [h2]
    unfold Fcs.isWindow
    have hx : ∀ k (hk : k < datum.length), (datum.map (Fcs.idx dates)).getD k 0 = Fcs.idx dates datum[k] := by
      intro k hk
      rw [List.getD_eq_getElem _ _ (by simpa using hk), List.getElem_map]
    simp only [List.length_map]
    constructor
    · rintro ⟨j, hj, hf, hc⟩
      refine ⟨j, hj, by rw [hf, hx _ hj], ?_⟩
      rcases hc with ⟨i, hi, e1, e2, e3⟩ | ⟨e0, e1, e2⟩
      · left
        refine ⟨i, hi, by rw [e1, hx i (by omega)], ?_, fun i' h h' => ?_⟩
        · rw [hx _ hj, hx i (by omega)] at e2; exact e2
        · have := e3 i' h h'
          rw [hx _ hj, hx i' (by omega)] at this; exact this
      · right
        refine ⟨e0, by rw [e1, hx 0 (by omega)], fun i' h' => ?_⟩
        have := e2 i' h'
        rw [hx _ hj, hx i' (by omega)] at this; exact this
    · rintro ⟨j, hj, hf, hc⟩
      refine ⟨j, hj, by rw [hf, hx _ hj], ?_⟩
      rcases hc with ⟨i, hi, e1, e2, e3⟩ | ⟨e0, e1, e2⟩
      · left
        refine ⟨i, hi, by rw [e1, hx i (by omega)], ?_, fun i' h h' => ?_⟩
        · rw [hx _ hj, hx i (by omega)]; exact e2
        · rw [hx _ hj, hx i' (by omega)]; exact e3 i' h h'
      · right
        refine ⟨e0, by rw [e1, hx 0 (by omega)], fun i' h' => ?_⟩
        rw [hx _ hj, hx i' (by omega)]; exact e2 i' h'

/-- Every window lies inside the table, and with at least two datum dates some window ends at the
last one. -/
theorem C40_inside (dates : List ℝ) (hs : dates.Pairwise (· ≤ ·)) (hn : dates ≠ []) (datum : List ℝ)
    (hd : datum.Pairwise (· ≤ ·)) (hd2 : 2 ≤ datum.length) (w : ℤ) (cs : List Case)
    (h : defineCases dates datum w = .ok cs) :
    (∀ c ∈ cs, (c.start : ℤ) ≤ c.final ∧ c.final < dates.length) ∧
      ∃ c ∈ cs, c.final = Fcs.idx dates (datum[datum.length - 1]'(by omega)) := by
  obtain ⟨cs', h1, -, h3⟩ := C40_windows dates hs hn datum (by omega) w
  rw [h] at h1
  injection h1 with h1
  subst h1
  have hmono : ∀ i j (hj : j < datum.length) (hi : i ≤ j), datum[i] ≤ datum[j] := by
    intro i j hj hi
    rcases Nat.lt_or_ge i j with h | h
    · exact List.pairwise_iff_getElem.1 hd i j _ _ h
    · have : i = j := by omega
      subst this; exact le_rfl
  constructor
  · intro c hc
    obtain ⟨j, hj, hf, hcase⟩ := (h3 c).1 hc
    have hlt := Fcs.idx_lt dates hn datum[j + 1]
    refine ⟨?_, by rw [hf]; exact_mod_cast hlt⟩
    rcases hcase with ⟨i, hi, e1, -⟩ | ⟨-, e1, -⟩
    · rw [hf, e1]
      exact_mod_cast Fcs.idx_mono dates (hmono i (j + 1) hj (by omega))
    · rw [hf, e1]
      exact_mod_cast Fcs.idx_mono dates (hmono 0 (j + 1) hj (by omega))
  · set m := datum.length - 2 with hm
    have hj : m + 1 < datum.length := by omega
    have e : datum.length - 1 = m + 1 := by omega
    by_cases hex : ∃ i, ∃ hi : i ≤ m, (Fcs.idx dates datum[m + 1] : ℤ) - Fcs.idx dates datum[i] > w
    · have hP : ∃ k, ∃ i, ∃ hi : i ≤ m, m - i = k ∧ (Fcs.idx dates datum[m + 1] : ℤ) - Fcs.idx dates datum[i] > w := by
        obtain ⟨i, hi, hgt⟩ := hex
        exact ⟨_, i, hi, rfl, hgt⟩
      classical
      obtain ⟨i, hi, hk, hgt⟩ := Nat.find_spec hP
      refine ⟨⟨Fcs.idx dates datum[i], Fcs.idx dates datum[m + 1]⟩, ?_, by simp only [e]⟩
      refine (h3 _).2 ⟨m, hj, rfl, Or.inl ⟨i, hi, rfl, hgt, fun i' h1 h2 => ?_⟩⟩
      by_contra hcon
      exact Nat.find_min hP (m := m - i') (by omega) ⟨i', h2, rfl, by omega⟩
    · refine ⟨⟨Fcs.idx dates datum[0], Fcs.idx dates datum[m + 1]⟩, ?_, by simp only [e]⟩
      refine (h3 _).2 ⟨m, hj, rfl, Or.inr ⟨by omega, rfl, fun i' hi' => ?_⟩⟩
      by_contra hcon
      exact hex ⟨i', hi', by omega⟩

/-- Finding: rows after the last datum date are in no window (the datum grid stops before the last
row, `np.arange(min, max, period)`): up to one period of the latest data is never used. -/
theorem C40_tail_unused (dates : List ℝ) (hs : dates.Pairwise (· ≤ ·)) (hn : dates ≠ []) (datum : List ℝ)
    (hd : datum.Pairwise (· ≤ ·)) (hd2 : 2 ≤ datum.length) (w : ℤ) (cs : List Case)
    (h : defineCases dates datum w = .ok cs) (r : ℕ)
    (hr : Fcs.idx dates (datum[datum.length - 1]'(by omega)) < r) : ∀ c ∈ cs, c.final < r := by
  obtain ⟨cs', h1, -, h3⟩ := C40_windows dates hs hn datum (by omega) w
  rw [h] at h1
  injection h1 with h1
  subst h1
  intro c hc
  obtain ⟨j, hj, hf, -⟩ := (h3 c).1 hc
  rw [hf]
  have : Fcs.idx dates datum[j + 1] ≤ Fcs.idx dates (datum[datum.length - 1]'(by omega)) := by
    refine Fcs.idx_mono dates ?_
    rcases Nat.lt_or_ge (j + 1) (datum.length - 1) with h | h
    · exact List.pairwise_iff_getElem.1 hd _ _ _ _ h
    · have : j + 1 = datum.length - 1 := by omega
      simp only [this]; exact le_rfl
  exact_mod_cast lt_of_le_of_lt this hr

/-- No datum date (all rows taken at the same time) gives no window at all. -/
theorem C40_no_datum (dates : List ℝ) (w : ℤ) : defineCases dates [] w = .ok [] := rfl

/-- One datum date: the windows end after `w`, `2w`, ... rows and at the last row, so that the last
one holds the whole table.  Finding: they all start at row 0 instead of being `w` rows long. -/
theorem C40_single (dates : List ℝ) (d : ℝ) (w : ℤ) (hw : 0 < w) :
    ∃ cs, defineCases dates [d] w = .ok cs ∧ (∀ c ∈ cs, c.start = 0) ∧
      cs.Pairwise (fun a b => a.final < b.final) ∧
      ∀ f : ℤ, (∃ c ∈ cs, c.final = f) ↔
        0 ≤ f ∧ f < dates.length ∧ (f = dates.length - 1 ∨ w ∣ f + 1) := by
  obtain ⟨w', rfl⟩ : ∃ w' : ℕ, w = w' := ⟨w.toNat, by omega⟩
  have hw' : 0 < w' := by omega
  refine ⟨(List.range ((dates.length + w' - 1) / w')).map fun (k : ℕ) =>
      { start := 0, final := min ((dates.length : ℤ) - 1) (k * w' + w' - 1) }, ?_, ?_, ?_, ?_⟩
  · unfold defineCases singleDatum
    simp [hw'.ne']
  · simp
  · rw [List.pairwise_map]
    refine (List.pairwise_lt_range (n := (dates.length + w' - 1) / w')).imp_of_mem ?_
    intro a b ha hb hab
    have hb' := List.mem_range.1 hb
    have h2 : b * w' < dates.length := by
      have := (Nat.lt_div_iff_mul_lt hw').1 hb'
      omega
    have h3 : (a + 1) * w' ≤ b * w' := Nat.mul_le_mul_right _ hab
    have h4 : (a : ℤ) * w' + w' ≤ b * w' := by
      have : (a + 1) * w' = a * w' + w' := by ring
      rw [this] at h3; exact_mod_cast h3
    have h2' : (b : ℤ) * w' < dates.length := by exact_mod_cast h2
    simp only
    omega
  · intro f
    simp only [List.mem_map, List.mem_range]
    constructor
    · rintro ⟨c, ⟨k, hk, rfl⟩, rfl⟩
      have h2 : w' * k < dates.length := by
        have := (Nat.lt_div_iff_mul_lt hw').1 hk
        rw [Nat.mul_comm] at this
        omega
      have h2' : (w' : ℤ) * k < dates.length := by exact_mod_cast h2
      have h5 : (0 : ℤ) ≤ (w' : ℤ) * k := by positivity
      have h6 : (k : ℤ) * w' = w' * k := by ring
      dsimp only
      rw [h6]
      refine ⟨by omega, by omega, ?_⟩
      rcases le_or_gt ((dates.length : ℤ) - 1) (w' * k + w' - 1) with h | h
      · left; omega
      · right
        rw [min_eq_right (le_of_lt h)]
        exact ⟨k + 1, by ring⟩
    · rintro ⟨h0, h1, h2⟩
      rcases h2 with h2 | ⟨q, hq⟩
      · refine ⟨_, ⟨f.toNat / w', ?_, rfl⟩, ?_⟩
        · rw [Nat.lt_div_iff_mul_lt hw']
          have := Nat.mul_div_le f.toNat w'
          rw [Nat.mul_comm] at this
          omega
        · have h3 := Nat.lt_mul_div_succ f.toNat hw'
          have h4 : (f.toNat : ℤ) < w' * (f.toNat / w' : ℕ) + w' := by
            have : w' * (f.toNat / w' + 1) = w' * (f.toNat / w') + w' := by ring
            rw [this] at h3; exact_mod_cast h3
          have h6 : ((f.toNat / w' : ℕ) : ℤ) * w' = w' * (f.toNat / w' : ℕ) := by ring
          dsimp only
          rw [h6]
          omega
      · have hq0 : 0 < q := by
          by_contra hcon
          have : (w' : ℤ) * q ≤ 0 := mul_nonpos_of_nonneg_of_nonpos (by omega) (by omega)
          omega
        obtain ⟨k, rfl⟩ : ∃ k : ℕ, q = k + 1 := ⟨(q - 1).toNat, by omega⟩
        have h6 : (w' : ℤ) * (k + 1) = w' * k + w' := by ring
        have h7 : (k : ℤ) * w' = w' * k := by ring
        refine ⟨_, ⟨k, ?_, rfl⟩, ?_⟩
        · rw [Nat.lt_div_iff_mul_lt hw']
          have : ((w' * k : ℕ) : ℤ) < dates.length := by push_cast; omega
          have : w' * k < dates.length := by exact_mod_cast this
          rw [Nat.mul_comm] at this
          omega
        · dsimp only
          rw [h7]
          omega

/-- Six daily rows, datum dates two days apart, at least one step per window. -/
example : (2 : ℕ) ≤ ([0, 2, 4] : List ℝ).length ∧ ([0, 1, 2, 3, 4, 5] : List ℝ).Pairwise (· ≤ ·) ∧
    Fcs.idx [0, 1, 2, 3, 4, 5] 4 < 5 := by
  refine ⟨by simp, by norm_num, ?_⟩
  have : ([0, 1, 2, 3, 4, 5] : List ℝ).countP (fun d => decide (d < 4)) = 4 := by
    norm_num [List.countP_cons]
  unfold Fcs.idx
  rw [this]; simp

end Verif.Props
