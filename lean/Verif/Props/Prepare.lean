import Verif.Model.Prepare
import Mathlib.Tactic.NormNum
import Mathlib.Tactic.Linarith
import Mathlib.Data.List.Basic
import Mathlib.Data.Nat.Bitwise

namespace Verif.Props
open Verif.Py Verif.Model.Prepare

/-! ## C46: interactive confirmations -/

/-- What a typed line means, ignoring case, when all answers are offered. -/
inductive Means : PyStr → Answer → Prop
  | help {l w} : w ∈ ["h", "help", "doc", "man"] → l.map Char.toLower = w.toList → Means l .help
  | no {l w} : w ∈ ["n", "no", "false"] → l.map Char.toLower = w.toList → Means l .no
  | yes {l w} : w ∈ ["y", "yes", "true"] → l.map Char.toLower = w.toList → Means l .yes

def MeansExit (l : PyStr) : Prop := l.map Char.toLower = "exit".toList

namespace Prep

theorem lower_input2 (l w : PyStr) (hw : w ≠ []) (hw' : w ≠ "(no entry)".toList) : lower (input2 l) = w ↔ l.map Char.toLower = w := by
  unfold lower input2
  split_ifs with h
  · subst h
    constructor
    · intro e
      exact absurd (by rw [← e]; decide) hw'
    · intro e
      exact absurd e.symm hw
  · rfl

theorem help_iff (l : PyStr) :
    lower (input2 l) ∈ ["h".toList, "help".toList, "doc".toList, "man".toList] ↔ Means l .help := by
  simp only [List.mem_cons, List.not_mem_nil, or_false]
  rw [lower_input2 l _ (by decide) (by decide), lower_input2 l _ (by decide) (by decide),
    lower_input2 l _ (by decide) (by decide), lower_input2 l _ (by decide) (by decide)]
  constructor
  · rintro (h | h | h | h)
    · exact .help (by simp) h
    · exact .help (by simp) h
    · exact .help (by simp) h
    · exact .help (by simp) h
  · intro h
    cases h with
    | help hw h =>
      simp only [List.mem_cons, List.not_mem_nil, or_false] at hw
      rcases hw with rfl | rfl | rfl | rfl <;> simp only [h, true_or, or_true]

theorem no_iff (l : PyStr) : lower (input2 l) ∈ ["n".toList, "no".toList, "false".toList] ↔ Means l .no := by
  simp only [List.mem_cons, List.not_mem_nil, or_false]
  rw [lower_input2 l _ (by decide) (by decide), lower_input2 l _ (by decide) (by decide),
    lower_input2 l _ (by decide) (by decide)]
  constructor
  · rintro (h | h | h)
    · exact .no (by simp) h
    · exact .no (by simp) h
    · exact .no (by simp) h
  · intro h
    cases h with
    | no hw h =>
      simp only [List.mem_cons, List.not_mem_nil, or_false] at hw
      rcases hw with rfl | rfl | rfl <;> simp only [h, true_or, or_true]

theorem yes_iff (l : PyStr) : lower (input2 l) ∈ ["y".toList, "yes".toList, "true".toList] ↔ Means l .yes := by
  simp only [List.mem_cons, List.not_mem_nil, or_false]
  rw [lower_input2 l _ (by decide) (by decide), lower_input2 l _ (by decide) (by decide),
    lower_input2 l _ (by decide) (by decide)]
  constructor
  · rintro (h | h | h)
    · exact .yes (by simp) h
    · exact .yes (by simp) h
    · exact .yes (by simp) h
  · intro h
    cases h with
    | yes hw h =>
      simp only [List.mem_cons, List.not_mem_nil, or_false] at hw
      rcases hw with rfl | rfl | rfl <;> simp only [h, true_or, or_true]

theorem exit_iff (l : PyStr) : lower (input2 l) ∈ ["exit".toList] ↔ MeansExit l := by
  simp only [List.mem_cons, List.not_mem_nil, or_false]
  rw [lower_input2 l _ (by decide) (by decide)]
  rfl

theorem means_unique {l : PyStr} {a b : Answer} (ha : Means l a) (hb : Means l b) : a = b := by
  cases ha with
  | help hw h =>
    cases hb with
    | help => rfl
    | no hw' h' =>
      exfalso
      simp only [List.mem_cons, List.not_mem_nil, or_false] at hw hw'
      rw [h] at h'
      rcases hw with rfl | rfl | rfl | rfl <;> rcases hw' with rfl | rfl | rfl <;> revert h' <;> decide
    | yes hw' h' =>
      exfalso
      simp only [List.mem_cons, List.not_mem_nil, or_false] at hw hw'
      rw [h] at h'
      rcases hw with rfl | rfl | rfl | rfl <;> rcases hw' with rfl | rfl | rfl <;> revert h' <;> decide
  | no hw h =>
    cases hb with
    | no => rfl
    | help hw' h' =>
      exfalso
      simp only [List.mem_cons, List.not_mem_nil, or_false] at hw hw'
      rw [h] at h'
      rcases hw with rfl | rfl | rfl <;> rcases hw' with rfl | rfl | rfl | rfl <;> revert h' <;> decide
    | yes hw' h' =>
      exfalso
      simp only [List.mem_cons, List.not_mem_nil, or_false] at hw hw'
      rw [h] at h'
      rcases hw with rfl | rfl | rfl <;> rcases hw' with rfl | rfl | rfl <;> revert h' <;> decide
  | yes hw h =>
    cases hb with
    | yes => rfl
    | help hw' h' =>
      exfalso
      simp only [List.mem_cons, List.not_mem_nil, or_false] at hw hw'
      rw [h] at h'
      rcases hw with rfl | rfl | rfl <;> rcases hw' with rfl | rfl | rfl | rfl <;> revert h' <;> decide
    | no hw' h' =>
      exfalso
      simp only [List.mem_cons, List.not_mem_nil, or_false] at hw hw'
      rw [h] at h'
      rcases hw with rfl | rfl | rfl <;> rcases hw' with rfl | rfl | rfl <;> revert h' <;> decide

theorem means_not_exit {l : PyStr} {a : Answer} (ha : Means l a) : ¬ MeansExit l := by
  intro hx
  unfold MeansExit at hx
  cases ha with
  | help hw h =>
    simp only [List.mem_cons, List.not_mem_nil, or_false] at hw
    rw [hx] at h
    rcases hw with rfl | rfl | rfl | rfl <;> revert h <;> decide
  | no hw h =>
    simp only [List.mem_cons, List.not_mem_nil, or_false] at hw
    rw [hx] at h
    rcases hw with rfl | rfl | rfl <;> revert h <;> decide
  | yes hw h =>
    simp only [List.mem_cons, List.not_mem_nil, or_false] at hw
    rw [hx] at h
    rcases hw with rfl | rfl | rfl <;> revert h <;> decide

theorem yesnohelp_cons (y n h e : Bool) (hs : (y || n || h || e) = true) (l : PyStr) (rest : List PyStr) :
    (h = true → Means l .help → yesnohelp y n h e (l :: rest) = .ok (.help, rest)) ∧
    (n = true → Means l .no → yesnohelp y n h e (l :: rest) = .ok (.no, rest)) ∧
    (y = true → Means l .yes → yesnohelp y n h e (l :: rest) = .ok (.yes, rest)) ∧
    (e = true → MeansExit l → yesnohelp y n h e (l :: rest) = .error (.sysExit 0)) ∧
    (¬ (h = true ∧ Means l .help) → ¬ (n = true ∧ Means l .no) → ¬ (y = true ∧ Means l .yes) → ¬ (e = true ∧ MeansExit l) →
      yesnohelp y n h e (l :: rest) = yesnohelp true true true true rest) := by
  classical
  have e0 : yesnohelp y n h e (l :: rest) =
      if h = true ∧ Means l .help then .ok (.help, rest)
      else if n = true ∧ Means l .no then .ok (.no, rest)
      else if y = true ∧ Means l .yes then .ok (.yes, rest)
      else if e = true ∧ MeansExit l then .error (.sysExit 0)
      else yesnohelp true true true true rest := by
    rw [yesnohelp, hs]
    simp only [Bool.not_true, Bool.false_eq_true, if_false, Bool.and_eq_true, decide_eq_true_eq, help_iff, no_iff, yes_iff, exit_iff]
  rw [e0]
  refine ⟨?_, ?_, ?_, ?_, ?_⟩
  · intro h1 h2; rw [if_pos ⟨h1, h2⟩]
  · intro h1 h2
    rw [if_neg (fun h => by cases means_unique h.2 h2), if_pos ⟨h1, h2⟩]
  · intro h1 h2
    rw [if_neg (fun h => by cases means_unique h.2 h2), if_neg (fun h => by cases means_unique h.2 h2), if_pos ⟨h1, h2⟩]
  · intro h1 h2
    rw [if_neg (fun h => means_not_exit h.2 h2), if_neg (fun h => means_not_exit h.2 h2),
      if_neg (fun h => means_not_exit h.2 h2), if_pos ⟨h1, h2⟩]
  · intro h1 h2 h3 h4
    rw [if_neg h1, if_neg h2, if_neg h3, if_neg h4]

end Prep
open Prep

/-- C46: with all answers offered, the answer is the meaning of the first typed line that means
something (the lines before it mean nothing), `exit` leaving the program. -/
theorem C46_all_offered (inp : List PyStr) :
    (∀ a rest, yesnohelp true true true true inp = .ok (a, rest) ↔
      ∃ pre l, inp = pre ++ l :: rest ∧ (∀ x ∈ pre, (∀ b, ¬ Means x b) ∧ ¬ MeansExit x) ∧ Means l a) ∧
    (yesnohelp true true true true inp = .error (.sysExit 0) ↔
      ∃ pre l rest, inp = pre ++ l :: rest ∧ (∀ x ∈ pre, (∀ b, ¬ Means x b) ∧ ¬ MeansExit x) ∧ MeansExit l) := by
  induction inp with
  | nil =>
    constructor
    · intro a rest
      constructor
      · intro h; cases h
      · rintro ⟨pre, l, h, -⟩; cases pre <;> cases h
    · constructor
      · intro h; cases h
      · rintro ⟨pre, l, rest, h, -⟩; cases pre <;> cases h
  | cons x inp ih =>
    obtain ⟨c1, c2, c3, c4, c5⟩ := yesnohelp_cons true true true true rfl x inp
    by_cases hm : ∃ b, Means x b
    · obtain ⟨b, hb⟩ := hm
      have hv : yesnohelp true true true true (x :: inp) = .ok (b, inp) := by
        cases b
        · exact c3 rfl hb
        · exact c2 rfl hb
        · exact c1 rfl hb
      rw [hv]
      constructor
      · intro a rest
        constructor
        · intro h
          injection h with h
          injection h with h1 h2
          subst h1 h2
          exact ⟨[], x, rfl, by simp, hb⟩
        · rintro ⟨pre, l, h, hp, hl⟩
          cases pre with
          | nil =>
            injection h with h1 h2
            subst h1 h2
            rw [means_unique hb hl]
          | cons z pre =>
            injection h with h1 h2
            subst h1
            exact absurd hb ((hp x (by simp)).1 b)
      · constructor
        · intro h; cases h
        · rintro ⟨pre, l, rest, h, hp, hl⟩
          cases pre with
          | nil =>
            injection h with h1 h2
            subst h1
            exact absurd hl (means_not_exit hb)
          | cons z pre =>
            injection h with h1 h2
            subst h1
            exact absurd hb ((hp x (by simp)).1 b)
    · push Not at hm
      by_cases hx : MeansExit x
      · rw [c4 rfl hx]
        constructor
        · intro a rest
          constructor
          · intro h; cases h
          · rintro ⟨pre, l, h, hp, hl⟩
            cases pre with
            | nil =>
              injection h with h1 h2
              subst h1
              exact absurd hl (hm a)
            | cons z pre =>
              injection h with h1 h2
              subst h1
              exact absurd hx (hp x (by simp)).2
        · exact ⟨fun _ => ⟨[], x, inp, rfl, by simp, hx⟩, fun _ => rfl⟩
      · rw [c5 (fun h => hm _ h.2) (fun h => hm _ h.2) (fun h => hm _ h.2) (fun h => hx h.2)]
        constructor
        · intro a rest
          rw [ih.1 a rest]
          constructor
          · rintro ⟨pre, l, rfl, hp, hl⟩
            refine ⟨x :: pre, l, rfl, ?_, hl⟩
            intro z hz
            rcases List.mem_cons.1 hz with rfl | hz
            · exact ⟨hm, hx⟩
            · exact hp z hz
          · rintro ⟨pre, l, h, hp, hl⟩
            cases pre with
            | nil =>
              injection h with h1 h2
              subst h1
              exact absurd hl (hm a)
            | cons z pre =>
              injection h with h1 h2
              exact ⟨pre, l, h2, fun z hz => hp z (by simp [hz]), hl⟩
        · rw [ih.2]
          constructor
          · rintro ⟨pre, l, rest, rfl, hp, hl⟩
            refine ⟨x :: pre, l, rest, rfl, ?_, hl⟩
            intro z hz
            rcases List.mem_cons.1 hz with rfl | hz
            · exact ⟨hm, hx⟩
            · exact hp z hz
          · rintro ⟨pre, l, rest, h, hp, hl⟩
            cases pre with
            | nil =>
              injection h with h1 h2
              subst h1
              exact absurd hl hx
            | cons z pre =>
              injection h with h1 h2
              exact ⟨pre, l, rest, h2, fun z hz => hp z (by simp [hz]), hl⟩

/-- The answers offered to the user. -/
def Offered (y n h : Bool) : Answer → Prop
  | .yes => y = true
  | .no => n = true
  | .help => h = true

/-- C46: for any restriction, a first line meaning an offered answer gives that answer, and a
first line meaning nothing that was offered starts over with everything offered. -/
theorem C46_first_line (y n h e : Bool) (hs : (y || n || h || e) = true) (l : PyStr) (rest : List PyStr) :
    (∀ a, Means l a → Offered y n h a → yesnohelp y n h e (l :: rest) = .ok (a, rest)) ∧
    (e = true → MeansExit l → yesnohelp y n h e (l :: rest) = .error (.sysExit 0)) ∧
    ((∀ a, Means l a → ¬ Offered y n h a) → (MeansExit l → e = false) →
      yesnohelp y n h e (l :: rest) = yesnohelp true true true true rest) := by
  obtain ⟨c1, c2, c3, c4, c5⟩ := yesnohelp_cons y n h e hs l rest
  refine ⟨?_, c4, ?_⟩
  · intro a ha ho
    cases a
    · exact c3 ho ha
    · exact c2 ho ha
    · exact c1 ho ha
  · intro ha hx
    refine c5 (fun h => ha _ h.2 h.1) (fun h => ha _ h.2 h.1) (fun h => ha _ h.2 h.1) ?_
    rintro ⟨h1, h2⟩
    rw [hx h2] at h1; cases h1

/-- C46 (finding): an answer that was not offered can be returned: after any first line that is
not an offered answer, `no` is accepted although only yes and exit are offered; the
confirmation of enabling mode then goes on. -/
theorem C46_unoffered_answer (l : PyStr) (rest : List PyStr) (hl : ¬ Means l .yes) (hx : ¬ MeansExit l) :
    yesnohelp true false false true (l :: "no".toList :: rest) = .ok (.no, rest) ∧
    confirmMode true (l :: "no".toList :: rest) = .ok rest := by
  have h1 : yesnohelp true false false true (l :: "no".toList :: rest) = .ok (.no, rest) := by
    rw [(C46_first_line true false false true rfl l _).2.2]
    · exact (C46_first_line true true true true rfl _ _).1 .no (.no (w := "no") (by simp) (by decide)) rfl
    · intro a ha ho
      cases a
      · exact hl ha
      · cases ho
      · cases ho
    · exact fun h => absurd h hx
  refine ⟨h1, ?_⟩
  unfold confirmMode
  rw [if_pos rfl, h1]

example : Means "Yes".toList .yes ∧ ¬ Means "maybe".toList .no := by
  refine ⟨.yes (w := "yes") (by simp) (by decide), ?_⟩
  intro h
  cases h with
  | no hw h =>
    simp only [List.mem_cons, List.not_mem_nil, or_false] at hw
    rcases hw with rfl | rfl | rfl <;> revert h <;> decide

/-! ## C45: several rows for one positioner -/

namespace Prep
variable {κ : Type} [DecidableEq κ] {α : Type}

theorem mem_rowIdxs (id : α → κ) (t : List α) (p : κ) (j : ℕ) :
    j ∈ rowIdxs id t p ↔ ∃ r, t[j]? = some r ∧ id r = p := by
  unfold rowIdxs
  rw [List.mem_map]
  constructor
  · rintro ⟨⟨r, k⟩, h, rfl⟩
    rw [List.mem_filter, List.mem_zipIdx_iff_getElem?] at h
    exact ⟨r, h.1, by simpa using h.2⟩
  · rintro ⟨r, h, h'⟩
    exact ⟨(r, j), by rw [List.mem_filter, List.mem_zipIdx_iff_getElem?]; exact ⟨h, by simpa using h'⟩, rfl⟩

theorem map_fst_filter (t : List α) (P : α → Bool) : (t.zipIdx.filter fun x => P x.1).map Prod.fst = t.filter P := by
  conv_rhs => rw [← List.zipIdx_map_fst 0 t, List.filter_map]
  rfl

theorem rowIdxs_length (id : α → κ) (t : List α) (p : κ) :
    (rowIdxs id t p).length = (t.filter fun r => decide (id r = p)).length := by
  unfold rowIdxs
  rw [List.length_map, ← map_fst_filter t (fun r => decide (id r = p)), List.length_map]

theorem removeRows_sublist (t : List α) (l : List ℕ) : (removeRows t l).Sublist t := by
  unfold removeRows
  have h := (List.filter_sublist (p := fun x : α × ℕ => decide (x.2 ∉ l)) (l := t.zipIdx)).map Prod.fst
  rwa [List.zipIdx_map_fst] at h

/-- Removing all rows of a positioner. -/
theorem removeRows_all (id : α → κ) (t : List α) (p : κ) :
    removeRows t (rowIdxs id t p) = t.filter fun r => decide (id r ≠ p) := by
  unfold removeRows
  rw [← map_fst_filter t]
  congr 1
  apply List.filter_congr
  intro x hx
  obtain ⟨r, j⟩ := x
  rw [List.mem_zipIdx_iff_getElem?] at hx
  simp only [decide_eq_decide]
  rw [mem_rowIdxs]
  simp only at hx ⊢
  constructor
  · intro h h'
    exact h ⟨r, hx, h'⟩
  · rintro h ⟨r', h1, h2⟩
    rw [hx] at h1
    injection h1 with h1
    rw [← h1] at h2
    exact h h2

/-- Removing all of them but table row `k`. -/
theorem removeRows_but (id : α → κ) (t : List α) (p : κ) (k : ℕ) :
    removeRows t ((rowIdxs id t p).filter fun j => decide (j ≠ k)) =
      (t.zipIdx.filter fun x => decide (id x.1 ≠ p ∨ x.2 = k)).map Prod.fst := by
  unfold removeRows
  congr 1
  apply List.filter_congr
  intro x hx
  obtain ⟨r, j⟩ := x
  rw [List.mem_zipIdx_iff_getElem?] at hx
  simp only [decide_eq_decide]
  rw [List.mem_filter, mem_rowIdxs]
  simp only [decide_eq_true_eq] at hx ⊢
  constructor
  · intro h
    by_cases h1 : id r = p
    · right
      by_contra h2
      exact h ⟨⟨r, hx, h1⟩, h2⟩
    · exact Or.inl h1
  · rintro h ⟨⟨r', h1, h2⟩, h3⟩
    rw [hx] at h1
    injection h1 with h1
    rw [← h1] at h2
    rcases h with h | h
    · exact h h2
    · exact h3 h

theorem count_but (id : α → κ) (t : List α) (p : κ) (k : ℕ) :
    (rowIdxs id ((t.zipIdx.filter fun x => decide (id x.1 ≠ p ∨ x.2 = k)).map Prod.fst) p).length =
      if k ∈ rowIdxs id t p then 1 else 0 := by
  classical
  rw [rowIdxs_length, List.filter_map, List.length_map, List.filter_filter]
  have e : (t.zipIdx.filter fun a => (((fun r => decide (id r = p)) ∘ Prod.fst) a && decide (id a.1 ≠ p ∨ a.2 = k))) =
      t.zipIdx.filter fun a => decide (id a.1 = p ∧ a.2 = k) := by
    apply List.filter_congr
    intro x _
    simp only [Function.comp]
    rw [← Bool.decide_and, decide_eq_decide]
    constructor
    · rintro ⟨h1, h2 | h2⟩
      · exact absurd h1 h2
      · exact ⟨h1, h2⟩
    · rintro ⟨h1, h2⟩
      exact ⟨h1, Or.inr h2⟩
  rw [e]
  have hnd : (t.zipIdx.map Prod.snd).Nodup := by
    rw [List.zipIdx_map_snd]; exact List.nodup_range' ..
  split_ifs with h
  · obtain ⟨r, hr, hp⟩ := (mem_rowIdxs id t p k).1 h
    have e2 : (t.zipIdx.filter fun a => decide (id a.1 = p ∧ a.2 = k)) = t.zipIdx.filter fun a => a == (r, k) := by
      apply List.filter_congr
      intro x hx
      obtain ⟨r', j⟩ := x
      rw [List.mem_zipIdx_iff_getElem?] at hx
      simp only at hx
      rw [Bool.eq_iff_iff]
      simp only [decide_eq_true_eq, beq_iff_eq, Prod.mk.injEq]
      constructor
      · rintro ⟨h1, rfl⟩
        rw [hr] at hx
        injection hx with hx
        exact ⟨hx.symm, rfl⟩
      · rintro ⟨rfl, rfl⟩
        exact ⟨hp, rfl⟩
    rw [e2, ← List.count_eq_length_filter]
    apply List.count_eq_one_of_mem
    · exact List.Nodup.of_map _ hnd
    · rw [List.mem_zipIdx_iff_getElem?]; exact hr
  · rw [List.length_eq_zero_iff, List.filter_eq_nil_iff]
    intro x hx hd
    obtain ⟨r', j⟩ := x
    rw [List.mem_zipIdx_iff_getElem?] at hx
    simp only [decide_eq_true_eq] at hx hd
    exact h ((mem_rowIdxs id t p k).2 ⟨r', by rw [← hd.2]; exact hx, hd.1⟩)

theorem toLower_digit {c : Char} (h : c.isDigit = true) : c.toLower = c := by
  rw [Char.isDigit_iff_toNat] at h
  unfold Char.toLower
  rw [dif_neg]
  rintro ⟨h1, -⟩
  have h1' : 'A'.toNat ≤ c.toNat := UInt32.le_iff_toNat_le.1 h1
  have h2 := h.2
  have h3 : 'A'.toNat = 65 := rfl
  have h4 : '9'.toNat = 57 := rfl
  omega

/-- `askOption` only removes rows of the positioner. -/
theorem askOption_other (id : α → κ) (t : List α) (p : κ) (inp : List PyStr) (t' : List α) (inp' : List PyStr)
    (h : askOption id t p (rowIdxs id t p) inp = .ok (t', inp')) (q : κ) (hq : q ≠ p) :
    t'.Sublist t ∧ (t'.filter fun r => decide (id r = q)) = t.filter fun r => decide (id r = q) := by
  induction inp with
  | nil => rw [askOption] at h; cases h
  | cons l rest ih =>
    rw [askOption] at h
    dsimp only at h
    split_ifs at h with h1
    · injection h with h
      injection h with h2 h3
      rw [← h2]
      refine ⟨removeRows_sublist _ _, ?_⟩
      rw [removeRows_all, List.filter_filter]
      apply List.filter_congr
      intro r _
      rw [← Bool.decide_and, decide_eq_decide]
      exact ⟨fun h => h.1, fun h => ⟨h, fun h' => hq (h ▸ h' ▸ rfl)⟩⟩
    · split at h
      · rename_i k hk
        split_ifs at h
        injection h with h
        injection h with h2 h3
        rw [← h2]
        refine ⟨removeRows_sublist _ _, ?_⟩
        rw [removeRows_but, ← map_fst_filter t, List.filter_map, List.filter_filter]
        congr 1
        apply List.filter_congr
        intro x _
        simp only [Function.comp]
        rw [← Bool.decide_and, decide_eq_decide]
        exact ⟨fun h => h.1, fun h => ⟨h, Or.inl (fun h' => hq (h ▸ h' ▸ rfl))⟩⟩
      · exact ih h

theorem uniqLoop_spec (id : α → κ) (order : List κ) (t : List α) (inp : List PyStr) (t' : List α) (inp' : List PyStr)
    (h : uniqLoop id order t inp = .ok (t', inp')) :
    t'.Sublist t ∧ ∀ q, (t.filter fun r => decide (id r = q)).length = 1 ∨ q ∉ order →
      (t'.filter fun r => decide (id r = q)) = t.filter fun r => decide (id r = q) := by
  induction order generalizing t inp with
  | nil =>
    injection h with h
    injection h with h1 h2
    rw [h1]
    exact ⟨List.Sublist.refl _, fun _ _ => rfl⟩
  | cons p ps ih =>
    rw [uniqLoop] at h
    split_ifs at h with h1
    · obtain ⟨i1, i2⟩ := ih t inp h
      refine ⟨i1, ?_⟩
      rintro q (hq | hq)
      · exact i2 q (Or.inl hq)
      · exact i2 q (Or.inr (fun hh => hq (by simp [hh])))
    · split at h
      · cases h
      · rename_i t1 inp1 hask
        obtain ⟨i1, i2⟩ := ih t1 inp1 h
        -- a sublist in any case
        have hsub : t1.Sublist t := by
          by_cases hq : ∃ q : κ, q ≠ p
          · obtain ⟨q, hq⟩ := hq
            exact (askOption_other id t p inp t1 inp1 hask q hq).1
          · clear ih i2 i1 h
            induction inp with
            | nil => rw [askOption] at hask; cases hask
            | cons l rest ih =>
              rw [askOption] at hask
              dsimp only at hask
              split_ifs at hask
              · injection hask with hask
                injection hask with h2 h3
                rw [← h2]; exact removeRows_sublist _ _
              · split at hask
                · split_ifs at hask
                  injection hask with hask
                  injection hask with h2 h3
                  rw [← h2]; exact removeRows_sublist _ _
                · exact ih hask
        refine ⟨i1.trans hsub, ?_⟩
        intro q hq
        have hqp : q ≠ p := by
          rintro rfl
          rcases hq with hq | hq
          · exact h1 (by rw [rowIdxs_length]; exact hq)
          · exact hq (by simp)
        have hs := (askOption_other id t p inp t1 inp1 hask q hqp).2
        rw [← hs]
        apply i2
        rcases hq with hq | hq
        · left; rw [hs]; exact hq
        · right; exact fun hh => hq (by simp [hh])

end Prep

variable {κ : Type} [DecidableEq κ] {α : Type}

/-- C45: after the uniqueness check every positioner has at most one row, no row is invented or
moved, and the positioners that had exactly one row keep it. -/
theorem C45_unique {id : α → κ} {order : List κ} {t : List α} {inp : List PyStr} {t' : List α} {inp' : List PyStr}
    (h : checkUniqueness id order t inp = .ok (t', inp')) :
    t'.Sublist t ∧ (t'.map id).Nodup ∧
    ∀ r ∈ t, (t.filter fun s => decide (id s = id r)).length = 1 → r ∈ t' := by
  unfold checkUniqueness at h
  split at h
  · cases h
  · rename_i t1 inp1 hu
    split_ifs at h with hnd
    injection h with h
    injection h with h1 h2
    subst h1
    obtain ⟨u1, u2⟩ := uniqLoop_spec id order t inp t1 inp1 hu
    refine ⟨u1, hnd, ?_⟩
    intro r hr h1
    have hm : r ∈ t.filter fun s => decide (id s = id r) := List.mem_filter.2 ⟨hr, by simp⟩
    rw [← u2 (id r) (Or.inl h1)] at hm
    exact (List.mem_filter.1 hm).1

/-- C45: the answers to the question about positioner `p`: "skip" removes all its rows; option
number `k` keeps, of its rows, the one that is number `k` *of the whole table*, and raises
AssertionError if that row belongs to another positioner.  It is the requested row exactly when
the `k`-th row of the positioner happens to be the `k`-th row of the table. -/
theorem C45_answers (id : α → κ) (t : List α) (p : κ) (l : PyStr) (rest : List PyStr) :
    (l.map Char.toLower = "skip".toList ∨ l.map Char.toLower = "s".toList →
      askOption id t p (rowIdxs id t p) (l :: rest) = .ok (t.filter (fun r => decide (id r ≠ p)), rest)) ∧
    (∀ k, k < (rowIdxs id t p).length → l = Nat.toDigits 10 k →
      askOption id t p (rowIdxs id t p) (l :: rest) =
        if k ∈ rowIdxs id t p then
          .ok ((t.zipIdx.filter fun x => decide (id x.1 ≠ p ∨ x.2 = k)).map Prod.fst, rest)
        else .error .assertionError) := by
  constructor
  · intro h
    rw [askOption]
    dsimp only
    rw [if_pos, removeRows_all]
    simp only [List.mem_cons, List.not_mem_nil, or_false]
    rw [lower_input2 l _ (by decide) (by decide), lower_input2 l _ (by decide) (by decide)]
    exact h
  · rintro k hk rfl
    have hne : Nat.toDigits 10 k ≠ [] := Nat.toDigits_ne_nil
    have hdig : ∀ c ∈ Nat.toDigits 10 k, c.isDigit = true := fun c hc => Nat.isDigit_of_mem_toDigits (b := 10) (by decide) (by decide) hc
    have hin : input2 (Nat.toDigits 10 k) = Nat.toDigits 10 k := by
      unfold input2; rw [if_neg hne]
    rw [askOption]
    dsimp only
    rw [if_neg, hin]
    · have hf : (List.range (rowIdxs id t p).length).find? (fun i => decide (Nat.toDigits 10 i = Nat.toDigits 10 k)) = some k := by
        rw [List.find?_range_eq_some]
        refine ⟨by simp, List.mem_range.2 hk, ?_⟩
        intro j hj
        simp only [Bool.not_eq_true', decide_eq_false_iff_not]
        intro e
        have := congrArg (fun s => Nat.ofDigitChars 10 s 0) e
        simp only [Nat.ofDigitChars_ten_toDigits] at this
        omega
      rw [hf]
      dsimp only
      rw [removeRows_but, count_but]
      split_ifs with h1 h2 h2 <;> first | rfl | (exfalso; omega)
    · simp only [List.mem_cons, List.not_mem_nil, or_false]
      rw [lower_input2 _ _ (by decide) (by decide), lower_input2 _ _ (by decide) (by decide)]
      have hs : 's' ∉ (Nat.toDigits 10 k).map Char.toLower := by
        intro h
        obtain ⟨c, hc, e⟩ := List.mem_map.1 h
        have hd := hdig c hc
        rw [toLower_digit hd] at e
        subst e
        revert hd; decide
      rintro (e | e)
      · exact hs (by rw [e]; decide)
      · exact hs (by rw [e]; decide)

/-- C45 (finding): the wrong row can be kept.  Positioner 7 has two rows, the second and third
of the table; the user asks for option 1 (its second row) and the program keeps the other one. -/
theorem C45_wrong_row :
    askOption (fun r : ℕ × ℕ => r.1) [(3, 0), (7, 1), (7, 2)] 7 (rowIdxs (fun r : ℕ × ℕ => r.1) [(3, 0), (7, 1), (7, 2)] 7)
      ["1".toList] = .ok ([(3, 0), (7, 1)], []) ∧
    (rowIdxs (fun r : ℕ × ℕ => r.1) [(3, 0), (7, 1), (7, 2)] 7)[1]? = some 2 := by
  constructor
  · rw [(C45_answers _ _ _ _ _).2 1 (by decide) (by decide)]
    rfl
  · decide

end Verif.Props
