import Verif.Model.PerfRead
import Verif.Props.Bitmask
import Verif.Props.Selection
import Verif.Props.FvcJobs
import Mathlib.Data.Char

/-!
# C83: rows of move data used by `analyze_pos_performance`
-/

namespace Verif.Props
open Verif.Py Verif.Model
open Verif.Model.PerfRead

namespace Pfr

/-- A move was commanded and a position measured: the command is a text other than the usual marks for nothing, the position and the exposure
are given and not zero, the iteration is given. -/
def HasMove {ρ : Type} (r : Row ρ) : Prop :=
  (∃ c, r.cmd = some c ∧ c ≠ [] ∧ c ≠ "None".toList ∧ c ≠ "none".toList ∧ c ≠ "(null)".toList ∧ c ≠ "null".toList ∧ c ≠ "--".toList) ∧
  (∃ x, r.x = some x ∧ x ≠ 0) ∧ (∃ y, r.y = some y ∧ y ≠ 0) ∧ (∃ e, r.expid = some e ∧ e ≠ 0) ∧ ∃ i, r.iter = some i

/-- The scales asked for. -/
def ScaleKept {ρ : Type} (s : Scale) (r : Row ρ) : Prop :=
  (s = .excl → r.scaleT = 1 ∧ r.scaleP = 1) ∧ (s = .tOrP → ¬ (r.scaleT = 1 ∧ r.scaleP = 1)) ∧
  (s = .tAndP → r.scaleT ≠ 1 ∧ r.scaleP ≠ 1) ∧ (s = .tOnly → r.scaleT ≠ 1 ∧ r.scaleP = 1) ∧ (s = .pOnly → r.scaleP ≠ 1 ∧ r.scaleT = 1)

/-- The flag of bit `b` is set. -/
def Bit {ρ : Type} (r : Row ρ) (b : ℕ) : Prop := ∃ m : ℕ, r.flags = m ∧ m.testBit b = true

/-- The note tells of a special move. -/
def Special {ρ : Type} (r : Row ρ) : Prop :=
  ∃ n, r.note = some n ∧ ("MOTORTEST".toList <:+: n ∨ "move_to_range".toList <:+: n ∨ "disambiguate_theta".toList <:+: n ∨
    "homing".toList <:+: n ∨ "limit seek".toList <:+: n)

/-- The rows that are used. -/
def Kept {ρ : Type} (o : Opts) (r : Row ρ) : Prop :=
  ¬ r.date < o.dateMin ∧ ¬ o.dateMax < r.date ∧ ScaleKept o.scale r ∧ HasMove r ∧ (Bit r 0 ∨ Bit r 10) ∧ (o.special = true ∨ ¬ Special r)

/-- The file is read. -/
def Usable {ρ : Type} (f : File ρ) : Prop := f.csv = true ∧ f.columns = true

open Classical in
/-- The rows of a positioner that are used, in the order of the file. -/
noncomputable def wanted {ρ : Type} (o : Opts) (f : File ρ) (p : PyStr) : List (Row ρ) :=
  if Usable f then f.rows.filter fun r => decide (Kept o r ∧ r.posid = p) else []

/-! ### Texts -/

theorem infix_sep {c : Char} {sub a b : PyStr} (hc : c ∉ sub) : sub <:+: a ++ c :: b ↔ sub <:+: a ∨ sub <:+: b := by
  constructor
  · rintro ⟨s, t, e⟩
    rcases List.append_eq_append_iff.1 e with ⟨a', e1, e2⟩ | ⟨c', e1, e2⟩
    · exact Or.inl ⟨s, a', e1.symm⟩
    · cases c' with
      | nil => exact Or.inl ⟨s, [], by simpa using e1⟩
      | cons d c'' =>
        simp only [List.cons_append, List.cons.injEq] at e2
        obtain ⟨rfl, e2⟩ := e2
        rcases List.append_eq_append_iff.1 e1 with ⟨a', e3, e4⟩ | ⟨a', e3, e4⟩
        · exact absurd (by rw [e4]; simp) hc
        · cases a' with
          | nil => exact absurd (by rw [List.nil_append] at e4; rw [← e4]; simp) hc
          | cons x a' =>
            simp only [List.cons_append, List.cons.injEq] at e4
            obtain ⟨rfl, rfl⟩ := e4
            exact Or.inr ⟨a', t, e2.symm⟩
  · rintro (⟨s, t, rfl⟩ | ⟨s, t, rfl⟩)
    · exact ⟨s, t ++ c :: b, by simp⟩
    · exact ⟨a ++ c :: s, t, by simp⟩

theorem infix_joinWith {c : Char} {sub : PyStr} (hc : c ∉ sub) (hs : sub ≠ []) (l : List PyStr) :
    sub <:+: joinWith c l ↔ ∃ p ∈ l, sub <:+: p := by
  induction l with
  | nil => simp [joinWith, hs]
  | cons a l ih =>
    cases l with
    | nil => simp [joinWith]
    | cons b l =>
      rw [show joinWith c (a :: b :: l) = a ++ c :: joinWith c (b :: l) by simp [joinWith], infix_sep hc, ih]
      simp

theorem infix_drop_left {k a r : PyStr} {c : Char} (hk : k.head? = some c) (ha : c ∉ a) : k <:+: a ++ r ↔ k <:+: r := by
  induction a with
  | nil => simp
  | cons d a ih =>
    rw [List.cons_append, List.infix_cons_iff, ih (fun h => ha (by simp [h]))]
    refine or_iff_right ?_
    intro h
    cases k with
    | nil => simp at hk
    | cons x k =>
      obtain ⟨t, e⟩ := h
      simp only [List.cons_append, List.cons.injEq] at e
      simp only [List.head?_cons, Option.some.injEq] at hk
      exact ha (by rw [← hk, e.1]; simp)

theorem infix_drop_right {k b r : PyStr} {c : Char} (hk : k.getLast? = some c) (hb : c ∉ b) : k <:+: r ++ b ↔ k <:+: r := by
  rw [← List.reverse_infix, List.reverse_append, infix_drop_left (c := c) (by rw [List.head?_reverse]; exact hk) (by simpa using hb),
    List.reverse_infix]

theorem infix_strip {k p : PyStr} {c d : Char} (h1 : k.head? = some c) (h2 : k.getLast? = some d) (hc : ¬ Blank c) (hd : ¬ Blank d) :
    k <:+: Selection.strip p ↔ k <:+: p := by
  obtain ⟨a, b, e, ha, hb, -, -⟩ := Sel.strip_trimmed p
  conv_rhs => rw [e]
  rw [infix_drop_right h2 (fun h => hd (hb d h)), infix_drop_left h1 (fun h => hc (ha c h))]

theorem infix_tokens {k n : PyStr} {c d : Char} (h1 : k.head? = some c) (h2 : k.getLast? = some d) (hc : ¬ Blank c) (hd : ¬ Blank d)
    (hs : ';' ∉ k) : (∃ t ∈ tokens n, k <:+: t) ↔ k <:+: n := by
  obtain ⟨l, l1, l2, l3⟩ := Sel.exists_join ';' n
  unfold tokens
  rw [← l3, Sel.split_join ';' l l1 (fun p hp => (l2 p hp).1), infix_joinWith hs (by rintro rfl; simp at h1)]
  constructor
  · rintro ⟨t, ht, h⟩
    obtain ⟨p, hp, rfl⟩ := List.mem_map.1 ht
    exact ⟨p, hp, (infix_strip h1 h2 hc hd).1 h⟩
  · rintro ⟨p, hp, h⟩
    exact ⟨_, List.mem_map_of_mem hp, (infix_strip h1 h2 hc hd).2 h⟩

theorem isSpecial_iff {ρ : Type} (r : Row ρ) : isSpecial r = true ↔ Special r := by
  have h : isSpecial r = true ↔ ∃ k ∈ specialKeywords, ∃ t ∈ tokens (noteText r), k <:+: t := by
    unfold isSpecial
    simp only [List.any_eq_true, Fvj.infix_of_pyIn]
    constructor
    · rintro ⟨t, ht, k, hk, h⟩; exact ⟨k, hk, t, ht, h⟩
    · rintro ⟨k, hk, t, ht, h⟩; exact ⟨t, ht, k, hk, h⟩
  have h2 : isSpecial r = true ↔ ∃ k ∈ specialKeywords, k <:+: noteText r := by
    rw [h]
    unfold specialKeywords
    simp only [List.mem_cons, List.not_mem_nil, or_false, exists_eq_or_imp, exists_eq_left]
    rw [infix_tokens (k := "MOTORTEST".toList) (c := 'M') (d := 'T') rfl rfl (by unfold Blank; decide) (by unfold Blank; decide) (by decide),
      infix_tokens (k := "move_to_range".toList) (c := 'm') (d := 'e') rfl rfl (by unfold Blank; decide) (by unfold Blank; decide) (by decide),
      infix_tokens (k := "disambiguate_theta".toList) (c := 'd') (d := 'a') rfl rfl (by unfold Blank; decide) (by unfold Blank; decide) (by decide),
      infix_tokens (k := "homing".toList) (c := 'h') (d := 'g') rfl rfl (by unfold Blank; decide) (by unfold Blank; decide) (by decide),
      infix_tokens (k := "limit seek".toList) (c := 'l') (d := 'k') rfl rfl (by unfold Blank; decide) (by unfold Blank; decide) (by decide)]
  rw [h2]
  unfold specialKeywords Special noteText
  simp only [List.mem_cons, List.not_mem_nil, or_false, exists_eq_or_imp, exists_eq_left]
  cases r.note with
  | none => simp
  | some n => simp

/-! ### Flags -/

theorem infix_intercalate {sub : PyStr} (h1 : ' ' ∉ sub) (h2 : '|' ∉ sub) (hs : sub ≠ []) (l : List PyStr) :
    sub <:+: " || ".toList.intercalate l ↔ ∃ p ∈ l, sub <:+: p := by
  have sep : " || ".toList = [' ', '|', '|', ' '] := rfl
  rw [sep]
  induction l with
  | nil => simp [List.intercalate, hs]
  | cons a l ih =>
    cases l with
    | nil => simp [List.intercalate]
    | cons b l =>
      have e : [' ', '|', '|', ' '].intercalate (a :: b :: l) =
          a ++ ' ' :: ([] ++ '|' :: ([] ++ '|' :: ([] ++ ' ' :: [' ', '|', '|', ' '].intercalate (b :: l)))) := by
        simp [List.intercalate]
      have n0 : ¬ sub <:+: [] := by simpa using hs
      have ih' : (sub <:+: [' ', '|', '|', ' '].intercalate (b :: l)) = ∃ p ∈ b :: l, sub <:+: p := propext ih
      rw [e, infix_sep h1, infix_sep h2, infix_sep h2, infix_sep h1, ih', List.exists_mem_cons_iff (a := a)]
      tauto

theorem matched_iff {ρ : Type} (r : Row ρ) : matched r = true ↔ Bit r 0 ∨ Bit r 10 := by
  unfold matched flagString Bit
  rw [Fvj.infix_of_pyIn, infix_intercalate (by decide) (by decide) (by decide)]
  by_cases hneg : r.flags < 0
  · rw [C28_negative _ _ hneg]
    simp only [List.filter_nil, List.not_mem_nil, false_and, exists_false, false_iff, not_or, not_exists, not_and]
    exact ⟨fun m e => by omega, fun m e => by omega⟩
  obtain ⟨m, hm⟩ := Int.eq_ofNat_of_zero_le (not_lt.1 hneg)
  rw [hm]
  obtain ⟨l, -, hl, hf⟩ := C28_names flagDefs m
  have hlab : ∀ b s, Label flagDefs b s → ("MATCHED".toList <:+: s ↔ b = 0 ∨ b = 10) ∧ ("MATCHED".toList <:+: s → ignored.contains s = false) := by
    intro b s h
    cases h with
    | known pre post s e hp =>
      have hmem : (s, b) ∈ flagDefs := by rw [e]; simp
      have hall : ∀ x ∈ flagDefs, ((pyIn "MATCHED".toList x.1 = true) ↔ (x.2 = 0 ∨ x.2 = 10)) ∧ ((pyIn "MATCHED".toList x.1 = true) → ignored.contains x.1 = false) := by
        decide
      have := hall _ hmem
      rwa [Fvj.infix_of_pyIn] at this
    | unknown hb =>
      have hno : ¬ "MATCHED".toList <:+: "UNKNOWN".toList ++ (toString b).toList := by
        intro h
        have hM : 'M' ∈ "UNKNOWN".toList ++ (toString b).toList := h.subset (by decide)
        rcases List.mem_append.1 hM with h | h
        · revert h; decide
        · have hd : (toString b).toList = Nat.toDigits 10 b := by
            show (Nat.repr b).toList = _
            unfold Nat.repr
            simp
          rw [hd] at h
          have := Nat.isDigit_of_mem_toDigits (b := 10) (by decide) (by decide) h
          revert this; decide
      refine ⟨iff_of_false hno ?_, fun h => absurd h hno⟩
      rintro (rfl | rfl)
      · exact absurd rfl (hb ("MATCHED".toList, 0) (by simp [flagDefs]))
      · exact absurd rfl (hb ("MATCHEDCENTER".toList, 10) (by simp [flagDefs]))
  have hex : (∃ p ∈ Bitmask.names (Bitmask.init flagDefs) (m : ℤ), "MATCHED".toList <:+: p) ↔ ∃ b ∈ l, b = 0 ∨ b = 10 := by
    clear hl
    generalize Bitmask.names (Bitmask.init flagDefs) (m : ℤ) = ns at hf
    induction hf with
    | nil => simp
    | cons h _ ih =>
      simp only [List.mem_cons, exists_eq_or_imp, ih, (hlab _ _ h).1]
  have hin : ∀ p ∈ Bitmask.names (Bitmask.init flagDefs) (m : ℤ), "MATCHED".toList <:+: p → ignored.contains p = false := by
    clear hl hex
    generalize Bitmask.names (Bitmask.init flagDefs) (m : ℤ) = ns at hf
    induction hf with
    | nil => simp
    | cons h _ ih =>
      intro p hp
      rcases List.mem_cons.1 hp with rfl | hp
      · exact (hlab _ _ h).2
      · exact ih p hp
  have e1 : (∃ p ∈ (Bitmask.names (Bitmask.init flagDefs) (m : ℤ)).filter (fun n => !ignored.contains n), "MATCHED".toList <:+: p) ↔
      ∃ p ∈ Bitmask.names (Bitmask.init flagDefs) (m : ℤ), "MATCHED".toList <:+: p := by
    constructor
    · rintro ⟨p, hp, h⟩; exact ⟨p, (List.mem_filter.1 hp).1, h⟩
    · rintro ⟨p, hp, h⟩; exact ⟨p, List.mem_filter.2 ⟨hp, by rw [hin p hp h]; rfl⟩, h⟩
  rw [e1, hex]
  constructor
  · rintro ⟨b, hb, rfl | rfl⟩
    · exact Or.inl ⟨m, rfl, (hl _).1 hb⟩
    · exact Or.inr ⟨m, rfl, (hl _).1 hb⟩
  · rintro (⟨m', e, h⟩ | ⟨m', e, h⟩)
    · obtain rfl : m = m' := by exact_mod_cast e
      exact ⟨_, (hl _).2 h, Or.inl rfl⟩
    · obtain rfl : m = m' := by exact_mod_cast e
      exact ⟨_, (hl _).2 h, Or.inr rfl⟩

/-! ### The filters -/

theorem moving_iff {ρ : Type} (r : Row ρ) : moving r = true ↔ HasMove r := by
  unfold moving HasMove
  have a1 : nullStr r.cmd = false ↔ ∃ c, r.cmd = some c ∧ c ≠ [] ∧ c ≠ "None".toList ∧ c ≠ "none".toList ∧ c ≠ "(null)".toList ∧ c ≠ "null".toList ∧ c ≠ "--".toList := by
    unfold nullStr nullTexts
    cases r.cmd with
    | none => simp
    | some c =>
      simp only [Option.some.injEq, exists_eq_left', ← Bool.not_eq_true, Bool.or_eq_true, List.isEmpty_iff, List.contains_iff_mem,
        List.mem_cons, List.not_mem_nil, or_false, not_or, ne_eq]
  have a2 : ∀ v : Option ℝ, nullReal v = false ↔ ∃ x, v = some x ∧ x ≠ 0 := by
    intro v; unfold nullReal; cases v <;> simp
  have a3 : nullInt r.expid = false ↔ ∃ x, r.expid = some x ∧ x ≠ 0 := by
    unfold nullInt; cases r.expid <;> simp
  have a4 : (nullInt r.iter && decide (r.iter ≠ some 0)) = false ↔ ∃ i, r.iter = some i := by
    unfold nullInt; cases r.iter <;> simp
  rw [← a1, ← a2, ← a2, ← a3, ← a4]
  simp only [Bool.not_eq_true', Bool.or_eq_false_iff]
  tauto

theorem scaleOk_iff {ρ : Type} (s : Scale) (r : Row ρ) : scaleOk s r = true ↔ ScaleKept s r := by
  unfold scaleOk ScaleKept
  cases s <;> simp <;> tauto

theorem kept_iff {ρ : Type} (o : Opts) (r : Row ρ) :
    Kept o r ↔ ((inDates o r = true ∧ scaleOk o.scale r = true) ∧ moving r = true) ∧ matched r = true ∧ (o.special = true ∨ isSpecial r = false) := by
  unfold Kept inDates
  rw [scaleOk_iff, moving_iff, matched_iff, ← isSpecial_iff]
  simp only [Bool.and_eq_true, Bool.not_eq_true', decide_eq_false_iff_not, Bool.not_eq_true]
  tauto

/-- What `readPos` gives, in one line. -/
theorem read_eq {ρ : Type} (order : List (Row ρ) → List (Row ρ)) (ho : ∀ l, (order l).Perm l) (o : Opts) (f : File ρ) (p : PyStr) :
    ∃ base : List (Row ρ), base.Perm (wanted o f p) ∧ base.Sublist (order (((f.rows.filter fun r => inDates o r).filter fun r => scaleOk o.scale r).filter fun r => moving r)) ∧
      readPos order o f p = if base = [] then none else some base := by
  classical
  set t0 := ((f.rows.filter fun r => inDates o r).filter fun r => scaleOk o.scale r).filter fun r => moving r with ht0
  by_cases hu : Usable f
  swap
  · refine ⟨[], by unfold wanted; rw [if_neg hu], by simp, ?_⟩
    unfold readPos
    unfold Usable at hu
    cases h1 : f.csv with
    | false => simp
    | true =>
      cases h2 : f.columns with
      | false => simp
      | true => exact absurd ⟨h1, h2⟩ hu
  · let base := (order t0).filter fun r => matched r && (o.special || !isSpecial r) && decide (r.posid = p)
    have hperm : base.Perm (wanted o f p) := by
      refine ((ho t0).filter _).trans ?_
      unfold wanted
      rw [if_pos hu, ht0, List.filter_filter, List.filter_filter, List.filter_filter]
      refine List.Perm.of_eq (List.filter_congr fun r _ => ?_)
      rw [Bool.eq_iff_iff, decide_eq_true_iff, kept_iff]
      simp only [Bool.and_eq_true, Bool.or_eq_true, Bool.not_eq_true', decide_eq_true_eq]
      tauto
    refine ⟨base, hperm, List.filter_sublist, ?_⟩
    unfold readPos
    rw [if_neg (by rw [hu.1]; simp), if_neg (by rw [hu.2]; simp)]
    by_cases hr : f.rows = []
    · rw [if_pos hr, if_pos]
      have : wanted o f p = [] := by unfold wanted; rw [hr]; simp
      rw [this] at hperm
      exact hperm.eq_nil
    rw [if_neg hr]
    dsimp only
    rw [← ht0]
    by_cases ht : t0 = []
    · rw [if_pos ht, if_pos]
      have : order t0 = [] := by
        have := ho t0
        rw [ht] at this ⊢
        exact this.eq_nil
      show (order t0).filter _ = []
      rw [this]; rfl
    rw [if_neg ht]
    have e : ((if o.special = true then (order t0).filter (fun r => matched r) else ((order t0).filter fun r => matched r).filter fun r => !isSpecial r).filter
        fun r => decide (r.posid = p)) = base := by
      show _ = (order t0).filter _
      cases hsp : o.special with
      | true =>
        rw [if_pos rfl, List.filter_filter]
        refine List.filter_congr fun r _ => ?_
        cases matched r <;> simp
      | false =>
        rw [if_neg (by simp), List.filter_filter, List.filter_filter]
        refine List.filter_congr fun r _ => ?_
        cases matched r <;> cases isSpecial r <;> simp
    rw [e]
    by_cases hb : base = []
    · rw [if_pos hb, if_neg (by rintro ⟨-, h⟩; exact h hb)]
    · rw [if_neg hb, if_pos]
      refine ⟨?_, hb⟩
      obtain ⟨r, hr⟩ := List.exists_mem_of_ne_nil _ hb
      have := List.mem_filter.1 hr
      simp only [Bool.and_eq_true, decide_eq_true_eq] at this
      exact List.mem_map.2 ⟨r, List.mem_filter.2 ⟨this.1, this.2.1.1⟩, this.2.2⟩

end Pfr

open Pfr

/-- C83: the rows read for a positioner are exactly the rows of the file of that positioner that are wanted, each as often as in the
file, and there is an entry for the positioner exactly if there is such a row. -/
theorem C83_read {ρ : Type} (order : List (Row ρ) → List (Row ρ)) (ho : ∀ l, (order l).Perm l) (o : Opts) (f : File ρ) (p : PyStr) :
    ((readPos order o f p).getD []).Perm (wanted o f p) ∧ (readPos order o f p = none ↔ wanted o f p = []) ∧ readPos order o f p ≠ some [] := by
  obtain ⟨base, h1, -, h2⟩ := read_eq order ho o f p
  rw [h2]
  have hb : base = [] ↔ wanted o f p = [] := ⟨fun h => by rw [h] at h1; exact h1.symm.eq_nil, fun h => by rw [h] at h1; exact h1.eq_nil⟩
  by_cases h : base = []
  · rw [if_pos h, ← hb]
    refine ⟨?_, ⟨fun _ => h, fun _ => rfl⟩, by simp⟩
    rw [hb.1 h]; simp
  · rw [if_neg h, ← hb]
    exact ⟨h1, ⟨(fun h' => nomatch h'), fun h' => absurd h' h⟩, fun h' => h (Option.some.inj h')⟩

/-- C83: the rows come in the order of the sort. -/
theorem C83_order {ρ : Type} (order : List (Row ρ) → List (Row ρ)) (ho : ∀ l, (order l).Perm l) (o : Opts) (f : File ρ) (p : PyStr)
    (R : Row ρ → Row ρ → Prop) (hR : ∀ l, (order l).Pairwise R) (t : List (Row ρ)) (h : readPos order o f p = some t) : t.Pairwise R := by
  obtain ⟨base, -, h1, h2⟩ := read_eq order ho o f p
  rw [h2] at h
  by_cases hb : base = []
  · rw [if_pos hb] at h; cases h
  · rw [if_neg hb] at h
    injection h with h
    rw [← h]
    exact (hR _).sublist h1

/-- C83: of several files the wanted rows of all are used, and none is lost when a positioner is in more than one of them. -/
theorem C83_files {ρ : Type} (order : List (Row ρ) → List (Row ρ)) (ho : ∀ l, (order l).Perm l) (o : Opts) (files : List (File ρ)) (p : PyStr) :
    ((gather order o files p).getD []).Perm (files.flatMap fun f => wanted o f p) ∧
      (gather order o files p = none ↔ ∀ f ∈ files, wanted o f p = []) := by
  unfold gather
  have key : ∀ (files : List (File ρ)) (d : Option (List (Row ρ))), 
      ((files.foldl (fun d f => stack d (readPos order o f p)) d).getD []).Perm (d.getD [] ++ files.flatMap fun f => wanted o f p) ∧
      ((files.foldl (fun d f => stack d (readPos order o f p)) d) = none ↔ d = none ∧ ∀ f ∈ files, wanted o f p = []) := by
    intro files
    induction files with
    | nil => intro d; simp
    | cons f files ih =>
      intro d
      obtain ⟨a1, a2, a3⟩ := C83_read order ho o f p
      rw [List.foldl_cons]
      obtain ⟨b1, b2⟩ := ih (stack d (readPos order o f p))
      refine ⟨b1.trans ?_, b2.trans ?_⟩
      · rw [List.flatMap_cons, ← List.append_assoc]
        refine List.Perm.append_right _ ?_
        cases hr : readPos order o f p with
        | none => rw [a2.1 hr]; simp [stack]
        | some t =>
          rw [hr] at a1
          cases d with
          | none => simpa [stack] using a1
          | some t' => exact List.Perm.append_left t' a1
      · rw [List.forall_mem_cons, ← a2]
        cases hr : readPos order o f p with
        | none => simp [stack]
        | some t => cases d <;> simp [stack]
  have := key files none
  simpa using this

/-- C83: every row has one of four kinds of scales, `exclude` selects the first, `t_only`, `p_only` and `t_and_p` one each of the others, and
`t_or_p` these three together. -/
theorem C83_scales {ρ : Type} (rows : List (Row ρ)) :
    let sel := fun s => rows.filter fun r => scaleOk s r
    sel .incl = rows ∧
    rows.Perm (sel .excl ++ sel .tOnly ++ sel .pOnly ++ sel .tAndP) ∧
    rows.Perm (sel .excl ++ sel .tOrP) ∧
    ∀ r : Row ρ, (scaleOk .excl r = true ↔ r.scaleT = 1 ∧ r.scaleP = 1) := by
  have part : ∀ (f g h : Row ρ → Bool), (∀ r, f r = (g r || h r)) → (∀ r, ¬ (g r = true ∧ h r = true)) → ∀ l : List (Row ρ), (l.filter f).Perm (l.filter g ++ l.filter h) := by
    intro f g h e d l
    induction l with
    | nil => simp
    | cons a l ih =>
      have ha := d a
      simp only [List.filter_cons, e a]
      cases hg : g a <;> cases hh : h a
      · simpa using ih
      · simpa using (ih.cons a).trans (List.perm_middle.symm)
      · simpa using ih.cons a
      · exact absurd ⟨hg, hh⟩ ha
  dsimp only
  refine ⟨List.filter_eq_self.2 fun _ _ => rfl, ?_, ?_, fun r => by simp [scaleOk]⟩
  · have h1 := part (fun r => true) (fun r => scaleOk .excl r) (fun r => scaleOk .tOrP r)
      (fun r => by unfold scaleOk; by_cases a : r.scaleT = 1 <;> by_cases b : r.scaleP = 1 <;> simp [a, b])
      (fun r => by unfold scaleOk; by_cases a : r.scaleT = 1 <;> by_cases b : r.scaleP = 1 <;> simp [a, b]) rows
    have h2 := part (fun r => scaleOk .tOrP r) (fun r => scaleOk .tOnly r) (fun r => scaleOk .pOnly r || scaleOk .tAndP r)
      (fun r => by unfold scaleOk; by_cases a : r.scaleT = 1 <;> by_cases b : r.scaleP = 1 <;> simp [a, b])
      (fun r => by unfold scaleOk; by_cases a : r.scaleT = 1 <;> by_cases b : r.scaleP = 1 <;> simp [a, b]) rows
    have h3 := part (fun r => scaleOk .pOnly r || scaleOk .tAndP r) (fun r => scaleOk .pOnly r) (fun r => scaleOk .tAndP r)
      (fun r => rfl)
      (fun r => by unfold scaleOk; by_cases a : r.scaleT = 1 <;> by_cases b : r.scaleP = 1 <;> simp [a, b]) rows
    rw [List.filter_eq_self.2 fun _ _ => rfl] at h1
    refine h1.trans ?_
    rw [List.append_assoc, List.append_assoc]
    exact List.Perm.append_left _ (h2.trans (List.Perm.append_left _ h3))
  · have h1 := part (fun r => true) (fun r => scaleOk .excl r) (fun r => scaleOk .tOrP r)
      (fun r => by unfold scaleOk; by_cases a : r.scaleT = 1 <;> by_cases b : r.scaleP = 1 <;> simp [a, b])
      (fun r => by unfold scaleOk; by_cases a : r.scaleT = 1 <;> by_cases b : r.scaleP = 1 <;> simp [a, b]) rows
    rwa [List.filter_eq_self.2 fun _ _ => rfl] at h1

/-- **C83** (finding) the rows of the last day asked for are left out: for dates with a time of day the last day kept is the one before
`--date_max`, though the help says that rows later than it are excluded. -/
theorem C83_last_day {ρ : Type} (o : Opts) (r : Row ρ) (day time : PyStr) (c : Char) (e : r.date = day ++ c :: time)
    (h1 : day.length = o.dateMin.length) (h2 : day.length = o.dateMax.length) :
    inDates o r = true ↔ ¬ day < o.dateMin ∧ day < o.dateMax := by
  have hlt : ∀ (a b t : PyStr), a.length = b.length → (a ++ t < b ↔ a < b) ∧ (b < a ++ c :: time ↔ ¬ a < b) := by
    intro a
    induction a with
    | nil =>
      intro b t h
      obtain rfl : b = [] := List.length_eq_zero_iff.1 h.symm
      simp
    | cons x a ih =>
      intro b t h
      cases b with
      | nil => simp at h
      | cons y b =>
        simp only [List.length_cons, Nat.add_right_cancel_iff] at h
        obtain ⟨i1, i2⟩ := ih b t h
        rw [List.cons_append, List.cons_append, List.cons_lt_cons_iff, List.cons_lt_cons_iff, List.cons_lt_cons_iff, i1, i2]
        refine ⟨Iff.rfl, ?_⟩
        rcases lt_trichotomy x y with h | rfl | h
        · simp [h, h.ne', h.asymm]
        · simp
        · simp [h, h.ne', h.asymm]
  unfold inDates
  rw [e]
  simp only [Bool.and_eq_true, Bool.not_eq_true', decide_eq_false_iff_not]
  rw [(hlt day o.dateMin _ h1).1, (hlt day o.dateMax [] h2).2, not_not]

/-- **C83** (finding) the search for `MATCHED` also finds `MATCHEDCENTER`, so rows of spots matched only to the center of a positioner
are kept. -/
theorem C83_matched_center {ρ : Type} (r : Row ρ) (m : ℕ) (e : r.flags = m) (h0 : m.testBit 0 = false) :
    matched r = m.testBit 10 := by
  rw [Bool.eq_iff_iff, matched_iff]
  unfold Bit
  constructor
  · rintro (⟨m', e', h⟩ | ⟨m', e', h⟩)
    · obtain rfl : m' = m := by rw [e] at e'; exact_mod_cast e'.symm
      rw [h0] at h; cases h
    · obtain rfl : m' = m := by rw [e] at e'; exact_mod_cast e'.symm
      exact h
  · intro h; exact Or.inr ⟨m, e, h⟩

/-- **C83** (finding) a measured position with a coordinate of exactly zero counts as not measured. -/
theorem C83_zero {ρ : Type} (order : List (Row ρ) → List (Row ρ)) (ho : ∀ l, (order l).Perm l) (o : Opts) (f : File ρ) (p : PyStr)
    (h : ∀ r ∈ f.rows, r.x = some 0 ∨ r.y = some 0 ∨ r.expid = some 0) : readPos order o f p = none := by
  classical
  rw [(C83_read order ho o f p).2.1]
  unfold wanted
  split_ifs
  · rw [List.filter_eq_nil_iff]
    intro r hr hk
    have hk := (decide_eq_true_iff.1 hk).1
    obtain ⟨-, -, -, ⟨-, ⟨x, hx, hx'⟩, ⟨y, hy, hy'⟩, ⟨e, he, he'⟩, -⟩, -, -⟩ := hk
    rcases h r hr with h | h | h
    · rw [h] at hx; exact hx' (Option.some.inj hx).symm
    · rw [h] at hy; exact hy' (Option.some.inj hy).symm
    · rw [h] at he; exact he' (Option.some.inj he).symm
  · rfl

/-- An ordinary row is kept. -/
example : Kept { dateMin := "2021-05-01".toList, dateMax := "2021-05-31".toList, scale := .excl, special := false }
    ({ date := "2021-05-04T01:02:03".toList, posid := "M00001".toList, scaleT := 1, scaleP := 1, cmd := some "QS=(1,2)".toList, x := some 3,
       y := some (-4), expid := some 12, iter := some 0, flags := 5, note := some "end of move; blind".toList, rest := () } : Row Unit) := by
  rw [kept_iff]
  refine ⟨⟨⟨by unfold inDates; decide, by simp [scaleOk]⟩, ?_⟩, ?_, Or.inr (by unfold isSpecial; decide)⟩
  · rw [moving_iff]
    exact ⟨⟨_, rfl, by decide⟩, ⟨_, rfl, by norm_num⟩, ⟨_, rfl, by norm_num⟩, ⟨_, rfl, by norm_num⟩, _, rfl⟩
  · rw [matched_iff]; exact Or.inl ⟨5, rfl, by decide⟩

end Verif.Props
