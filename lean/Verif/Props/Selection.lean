import Verif.Model.Selection
import Verif.Lemmas.Str
import Mathlib.Data.List.Basic

namespace Verif.Props
open Verif.Py Verif.Model.Selection Verif.Lemmas.Str

/-- Blank characters. -/
def Blank (c : Char) : Prop := c = ' ' ∨ (9 ≤ c.toNat ∧ c.toNat ≤ 13) ∨ (28 ≤ c.toNat ∧ c.toNat ≤ 31)

/-- `w` is `p` without the blanks around it. -/
def Trimmed (p w : PyStr) : Prop :=
  ∃ a b, p = a ++ w ++ b ∧ (∀ c ∈ a, Blank c) ∧ (∀ c ∈ b, Blank c) ∧
    (∀ c, w.head? = some c → ¬ Blank c) ∧ (∀ c, w.getLast? = some c → ¬ Blank c)

/-- Pieces joined with a separator character: `sep.join(pieces)`. -/
def joinWith (sep : Char) : List PyStr → PyStr
  | [] => []
  | [p] => p
  | p :: q :: l => p ++ sep :: joinWith sep (q :: l)

namespace Sel

theorem isSpace_iff (c : Char) : isSpace c = true ↔ Blank c := by
  unfold isSpace Blank
  simp [or_assoc]

theorem find_nonneg (sub s : PyStr) : find sub s ≥ 0 ↔ sub <:+: s := by
  induction s with
  | nil =>
    rw [find]
    split_ifs with h
    · simp [h]
    · simp [h]
  | cons c t ih =>
    rw [find]
    split_ifs with h
    · simp only [ge_iff_le, le_refl, true_iff]
      exact (List.isPrefixOf_iff_prefix.1 h).isInfix
    · have hp : ¬ sub <+: c :: t := fun h' => h (List.isPrefixOf_iff_prefix.2 h')
      rw [List.infix_cons_iff]
      simp only [hp, false_or]
      rw [← ih]
      split_ifs with h2
      · constructor
        · intro h3; norm_num at h3
        · intro h3; omega
      · constructor
        · intro _; omega
        · intro _; omega

theorem dropWhile_split {p : Char → Bool} (s : PyStr) : ∃ a, s = a ++ s.dropWhile p ∧ (∀ c ∈ a, p c = true) ∧
    ∀ c, (s.dropWhile p).head? = some c → p c = false := by
  refine ⟨s.takeWhile p, (List.takeWhile_append_dropWhile).symm, ?_, ?_⟩
  · intro c hc
    exact List.all_eq_true.1 (List.all_takeWhile (p := p) (l := s)) c hc
  · intro c hc
    have := List.head?_dropWhile_not p s
    rw [hc] at this
    simpa using this

theorem strip_trimmed (s : PyStr) : Trimmed s (strip s) := by
  obtain ⟨a, h1, h2, h3⟩ := dropWhile_split (p := isSpace) s
  obtain ⟨b, g1, g2, g3⟩ := dropWhile_split (p := isSpace) (s.dropWhile isSpace).reverse
  have e : s.dropWhile isSpace = strip s ++ b.reverse := by
    have := congrArg List.reverse g1
    simpa [strip] using this
  refine ⟨a, b.reverse, by rw [List.append_assoc, ← e, ← h1], fun c hc => (isSpace_iff c).1 (h2 c hc),
    fun c hc => (isSpace_iff c).1 (g2 c (by simpa using hc)), ?_, ?_⟩
  · intro c hc
    rw [← isSpace_iff, h3 c]
    · simp
    · rw [e]
      cases hs : strip s with
      | nil => rw [hs] at hc; cases hc
      | cons d t => rw [hs] at hc; simpa using hc
  · intro c hc
    rw [← isSpace_iff, g3 c]
    · simp
    · rw [← hc]
      simp [strip]

theorem nil_of_blank {w : PyStr} (hw : ∀ c ∈ w, Blank c) (hh : ∀ c, w.head? = some c → ¬ Blank c) : w = [] := by
  cases w with
  | nil => rfl
  | cons c t => exact absurd (hw c (by simp)) (hh c rfl)

/-- Trimming from the left is determined. -/
theorem left_unique {a a' r r' : PyStr} (h : a ++ r = a' ++ r') (ha : ∀ c ∈ a, Blank c) (ha' : ∀ c ∈ a', Blank c)
    (hr : ∀ c, r.head? = some c → ¬ Blank c) (hr' : ∀ c, r'.head? = some c → ¬ Blank c) : a = a' ∧ r = r' := by
  induction a generalizing a' with
  | nil =>
    cases a' with
    | nil => exact ⟨rfl, by simpa using h⟩
    | cons c a' =>
      simp only [List.nil_append, List.cons_append] at h
      exact absurd (ha' c (by simp)) (hr c (by rw [h]; rfl))
  | cons c a ih =>
    cases a' with
    | nil =>
      simp only [List.nil_append, List.cons_append] at h
      exact absurd (ha c (by simp)) (hr' c (by rw [← h]; rfl))
    | cons d a' =>
      simp only [List.cons_append, List.cons.injEq] at h
      obtain ⟨rfl, h⟩ := h
      obtain ⟨e1, e2⟩ := ih h (fun x hx => ha x (by simp [hx])) (fun x hx => ha' x (by simp [hx]))
      exact ⟨by rw [e1], e2⟩

theorem trimmed_unique {p w w' : PyStr} (h : Trimmed p w) (h' : Trimmed p w') : w = w' := by
  obtain ⟨a, b, e, ha, hb, h1, h2⟩ := h
  obtain ⟨a', b', e', ha', hb', h1', h2'⟩ := h'
  by_cases hw : w = []
  · subst hw
    have hall : ∀ c ∈ p, Blank c := by
      intro c hc
      rw [e] at hc
      simp only [List.append_nil, List.mem_append] at hc
      rcases hc with hc | hc
      · exact ha c hc
      · exact hb c hc
    rw [nil_of_blank (w := w') (fun c hc => hall c (by rw [e']; simp [hc])) h1']
  by_cases hw' : w' = []
  · subst hw'
    have hall : ∀ c ∈ p, Blank c := by
      intro c hc
      rw [e'] at hc
      simp only [List.append_nil, List.mem_append] at hc
      rcases hc with hc | hc
      · exact ha' c hc
      · exact hb' c hc
    exact absurd (nil_of_blank (w := w) (fun c hc => hall c (by rw [e]; simp [hc])) h1) hw
  have e2 : a ++ (w ++ b) = a' ++ (w' ++ b') := by rw [← List.append_assoc, ← e, e', List.append_assoc]
  obtain ⟨-, e3⟩ := left_unique e2 ha ha'
    (by intro c hc; apply h1 c; cases w with
        | nil => exact absurd rfl hw
        | cons d t => simpa using hc)
    (by intro c hc; apply h1' c; cases w' with
        | nil => exact absurd rfl hw'
        | cons d t => simpa using hc)
  have e4 : b.reverse ++ w.reverse = b'.reverse ++ w'.reverse := by
    rw [← List.reverse_append, e3, List.reverse_append]
  obtain ⟨-, e5⟩ := left_unique e4 (fun c hc => hb c (by simpa using hc)) (fun c hc => hb' c (by simpa using hc))
    (by intro c hc; exact h2 c (by simpa using hc))
    (by intro c hc; exact h2' c (by simpa using hc))
  exact List.reverse_injective e5

/-- Splitting undoes joining. -/
theorem split_join (c : Char) (l : List PyStr) (hl : l ≠ []) (h : ∀ p ∈ l, c ∉ p) : split [c] (joinWith c l) = l := by
  unfold split
  induction l with
  | nil => exact absurd rfl hl
  | cons p l ih =>
    have hp : ∀ x ∈ p, x ≠ c := by
      rintro x hx rfl
      exact h p (by simp) hx
    cases l with
    | nil =>
      have := splitAux_copy (s' := []) [] p [] hp
      rw [List.append_nil] at this
      rw [joinWith, this]
      simp [splitAux]
    | cons q l =>
      rw [joinWith, splitAux_copy _ _ _ hp]
      have := splitAux_sep (sep := [c]) (by simp) (p.reverse ++ []) (joinWith c (q :: l))
      simp only [List.singleton_append] at this
      rw [this, ih (by simp) (fun x hx => h x (by simp [hx]))]
      simp

/-- Every string is a join. -/
theorem exists_join (c : Char) (s : PyStr) : ∃ l : List PyStr, l ≠ [] ∧ (∀ p ∈ l, c ∉ p ∧ ∀ x ∈ p, x ∈ s) ∧ joinWith c l = s := by
  induction s with
  | nil => exact ⟨[[]], by simp, by simp, rfl⟩
  | cons d s ih =>
    obtain ⟨l, h1, h2, h3⟩ := ih
    by_cases hd : d = c
    · subst hd
      refine ⟨[] :: l, by simp, ?_, ?_⟩
      · intro p hp
        rcases List.mem_cons.1 hp with rfl | hp
        · simp
        · exact ⟨(h2 p hp).1, fun x hx => List.mem_cons_of_mem _ ((h2 p hp).2 x hx)⟩
      · cases l with
        | nil => exact absurd rfl h1
        | cons q l => rw [joinWith, h3]; rfl
    · cases l with
      | nil => exact absurd rfl h1
      | cons q l =>
        refine ⟨(d :: q) :: l, by simp, ?_, ?_⟩
        · intro p hp
          rcases List.mem_cons.1 hp with rfl | hp
          · obtain ⟨g1, g2⟩ := h2 q (by simp)
            constructor
            · simp only [List.mem_cons, not_or]; exact ⟨fun e => hd e.symm, g1⟩
            · intro x hx
              rcases List.mem_cons.1 hx with rfl | hx
              · simp
              · exact List.mem_cons_of_mem _ (g2 x hx)
          · obtain ⟨g1, g2⟩ := h2 p (by simp [hp])
            exact ⟨g1, fun x hx => List.mem_cons_of_mem _ (g2 x hx)⟩
        · cases l with
          | nil => simp only [joinWith] at h3 ⊢; rw [h3]
          | cons r l => simp only [joinWith] at h3 ⊢; rw [← h3]; rfl

theorem zipWith_map_left {α β : Type} (f : β → α → β) (g : α → β) (t : List α) :
    List.zipWith f (t.map g) t = t.map fun r => f (g r) r := by
  induction t with
  | nil => rfl
  | cons a t ih => simp [ih]

theorem getMatches_eq {α : Type} (note : α → PyStr) (t : List α) (s : PyStr) :
    getMatches note t s = t.map fun r => (keywords s).all fun k => decide (find k (note r) ≥ 0) := by
  unfold getMatches
  have key : ∀ (ks : List PyStr) (g : α → Bool),
      ks.foldl (fun ok k => List.zipWith (fun b r => b && decide (find k (note r) ≥ 0)) ok t) (t.map g) =
        t.map fun r => g r && ks.all fun k => decide (find k (note r) ≥ 0) := by
    intro ks
    induction ks with
    | nil => intro g; simp
    | cons k ks ih =>
      intro g
      rw [List.foldl_cons, zipWith_map_left, ih]
      simp [Bool.and_assoc]
  have h0 : List.replicate t.length true = t.map fun _ => true := by simp
  rw [h0, key]
  simp

theorem selection_eq {α : Type} (note : α → PyStr) (t : List α) (s : PyStr) :
    posmoveSelection note t (some s) =
      t.filter fun r => (split ['|'] s).any fun c => (keywords c).all fun k => decide (find k (note r) ≥ 0) := by
  unfold posmoveSelection
  have key : ∀ (cs : List PyStr) (g : α → Bool),
      cs.foldl (fun ok s => List.zipWith (fun a b => a || b) ok (getMatches note t s)) (t.map g) =
        t.map fun r => g r || cs.any fun c => (keywords c).all fun k => decide (find k (note r) ≥ 0) := by
    intro cs
    induction cs with
    | nil => intro g; simp
    | cons c cs ih =>
      intro g
      rw [List.foldl_cons, getMatches_eq]
      have : List.zipWith (fun a b => a || b) (t.map g) (t.map fun r => (keywords c).all fun k => decide (find k (note r) ≥ 0))
          = t.map fun r => g r || (keywords c).all fun k => decide (find k (note r) ≥ 0) := by
        generalize t = t
        induction t with
        | nil => rfl
        | cons a t ih => simp [ih]
      rw [this, ih]
      simp [Bool.or_assoc]
  have h0 : List.replicate t.length false = t.map fun _ => false := by simp
  dsimp only
  rw [h0, key]
  unfold mask
  simp only [Bool.false_or]
  generalize (fun r : α => (split ['|'] s).any fun c => (keywords c).all fun k => decide (find k (note r) ≥ 0)) = p
  clear key h0
  induction t with
  | nil => rfl
  | cons a t ih =>
    simp only [List.map_cons, List.zip_cons_cons, List.filter_cons]
    cases p a <;> simp [ih]

end Sel
open Sel

/-- C39: the selection string is a disjunction (separator `|`) of conjunctions (separator `&`) of
keywords with blanks around them ignored; a row is kept, in its place, iff in some clause every
keyword is part of its LOG_NOTE. -/
theorem C39_formula {α : Type} (note : α → PyStr) (table : List α) (clauses : List (List PyStr)) (h0 : clauses ≠ [])
    (h1 : ∀ c ∈ clauses, c ≠ [] ∧ ∀ p ∈ c, '|' ∉ p ∧ '&' ∉ p) :
    ∃ keep : α → Bool, posmoveSelection note table (some (joinWith '|' (clauses.map (joinWith '&')))) = table.filter keep ∧
      ∀ r, keep r = true ↔ ∃ c ∈ clauses, ∀ p ∈ c, ∀ w, Trimmed p w → w <:+: note r := by
  refine ⟨_, selection_eq note table _, ?_⟩
  intro r
  rw [split_join]
  · simp only [List.any_map, List.any_eq_true, Function.comp, List.all_eq_true, decide_eq_true_eq]
    apply exists_congr
    intro c
    apply and_congr_right
    intro hc
    unfold keywords
    rw [split_join '&' c (h1 c hc).1 (fun p hp => ((h1 c hc).2 p hp).2)]
    simp only [List.mem_filter, List.mem_map, find_nonneg, decide_eq_true_eq]
    constructor
    · intro h p hp w hw
      rw [trimmed_unique hw (strip_trimmed p)]
      by_cases hs : strip p = []
      · rw [hs]; exact List.nil_infix
      · exact h _ ⟨⟨p, hp, rfl⟩, List.length_pos_iff.2 hs⟩
    · rintro h k ⟨⟨p, hp, rfl⟩, -⟩
      exact h p hp _ (strip_trimmed p)
  · simpa using h0
  · intro s hs
    obtain ⟨c, hc, rfl⟩ := List.mem_map.1 hs
    have hbar : ∀ l : List PyStr, (∀ p ∈ l, '|' ∉ p) → '|' ∉ joinWith '&' l := by
      intro l
      induction l with
      | nil => intro _; simp [joinWith]
      | cons p l ih =>
        intro h
        cases l with
        | nil => simpa [joinWith] using h p (by simp)
        | cons q l =>
          rw [joinWith]
          simp only [List.mem_append, List.mem_cons, not_or]
          exact ⟨h p (by simp), by decide, ih (fun x hx => h x (by simp [hx]))⟩
    exact hbar c (fun p hp => ((h1 c hc).2 p hp).1)

/-- C39: every selection string is such a formula, so `C39_formula` applies to all of them. -/
theorem C39_every_string (s : PyStr) : ∃ clauses : List (List PyStr), clauses ≠ [] ∧
    (∀ c ∈ clauses, c ≠ [] ∧ ∀ p ∈ c, '|' ∉ p ∧ '&' ∉ p) ∧ joinWith '|' (clauses.map (joinWith '&')) = s := by
  obtain ⟨l, h1, h2, h3⟩ := exists_join '|' s
  choose f hf using fun p => exists_join '&' p
  refine ⟨l.map f, by simpa using h1, ?_, ?_⟩
  · intro c hc
    obtain ⟨p, hp, rfl⟩ := List.mem_map.1 hc
    exact ⟨(hf p).1, fun q hq => ⟨fun hb => (h2 p hp).1 (((hf p).2.1 q hq).2 _ hb), ((hf p).2.1 q hq).1⟩⟩
  · rw [List.map_map]
    have : l.map (joinWith '&' ∘ f) = l := by
      conv_rhs => rw [← List.map_id l]
      exact List.map_congr_left fun p _ => (hf p).2.2
    rw [this, h3]

/-- C39: without a selection string everything is kept. -/
theorem C39_none {α : Type} (note : α → PyStr) (table : List α) : posmoveSelection note table none = table := rfl

/-- C39 (finding): an empty clause, for example after a trailing `|`, selects every row. -/
theorem C39_empty_clause {α : Type} (note : α → PyStr) (table : List α) (s : PyStr) (hs : '|' ∉ s) :
    posmoveSelection note table (some (s ++ ['|'])) = table := by
  rw [selection_eq]
  have : split ['|'] (s ++ ['|']) = [s, []] := by
    have := split_join '|' [s, []] (by simp) (by simpa using hs)
    simpa [joinWith] using this
  rw [this]
  rw [List.filter_eq_self]
  intro r _
  simp [keywords, split, splitAux, strip]

example : posmoveSelection (fun r : PyStr => r) ["req_posintTP xx".toList, "home".toList, "req xx yy".toList]
    (some "req & yy|home".toList) = ["home".toList, "req xx yy".toList] := by decide

end Verif.Props
