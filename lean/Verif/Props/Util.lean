import Verif.Model.Util
import Verif.Lemmas.Str
import Verif.Lemmas.Pos2ptl

namespace Verif.Props
open Verif.Py Verif.Model.Util Verif.Lemmas.Str

/-- A non-empty string of decimal digits. -/
def DigitString (s : List Char) : Prop := s ≠ [] ∧ ∀ c ∈ s, '0' ≤ c ∧ c ≤ '9'

/-- The number written by a digit string. -/
def number (s : List Char) : ℕ := Nat.ofDigits 10 (s.reverse.map fun c => c.toNat - 48)

/-- What one item (without blanks) denotes: a number, or a half-open range. -/
inductive Item : List Char → List ℕ → Prop
  | single (d : List Char) : DigitString d → Item d [number d]
  | range (a sep b : List Char) (l : List ℕ) : DigitString a → DigitString b →
      (sep = ":".toList ∨ sep = "..".toList ∨ sep = "-".toList) →
      l.Pairwise (· < ·) → (∀ n, n ∈ l ↔ number a ≤ n ∧ n < number b) → Item (a ++ sep ++ b) l

theorem digits_iff (s : List Char) : isDigits s = true ↔ DigitString s := by
  unfold isDigits DigitString isDig
  simp [List.isEmpty_iff]

theorem number_eq (s : List Char) : toInt s = number s := toInt_eq s

theorem range'_mem (a b n : ℕ) : n ∈ List.range' a (b - a) ↔ a ≤ n ∧ n < b := by
  rw [List.mem_range'_1]; omega

theorem pairwise_unique {l l' : List ℕ} (h : l.Pairwise (· < ·)) (h' : l'.Pairwise (· < ·))
    (hm : ∀ n, n ∈ l ↔ n ∈ l') : l = l' := by
  refine List.Perm.eq_of_pairwise (le := (· < ·)) (fun a b _ _ h1 h2 => by omega) h h' ?_
  exact (List.perm_ext_iff_of_nodup (h.imp (fun h => Nat.ne_of_lt h)) (h'.imp (fun h => Nat.ne_of_lt h))).2 hm

theorem notSep {s : List Char} (h : DigitString s) : ∀ c ∈ s, c ≠ ':' ∧ c ≠ '.' ∧ c ≠ '-' := by
  intro c hc
  have := h.2 c hc
  refine ⟨?_, ?_, ?_⟩ <;> (rintro rfl; revert this; decide)

theorem tryOne_some {symbol sub : List Char} {l : List ℕ} (hs : symbol ≠ []) (h : tryOne symbol sub = some l) :
    ∃ a b, DigitString a ∧ DigitString b ∧ sub = a ++ symbol ++ b ∧ l = List.range' (number a) (number b - number a) := by
  unfold tryOne at h
  split_ifs at h
  split at h
  · rename_i a b hab
    split_ifs at h with hd
    simp only [Bool.and_eq_true] at hd
    injection h with h
    have hj := intercalate_split hs sub
    rw [hab] at hj
    refine ⟨a, b, (digits_iff a).1 hd.1, (digits_iff b).1 hd.2, ?_, ?_⟩
    · rw [← hj]; simp [List.intercalate, List.intersperse]
    · rw [← h, number_eq, number_eq]
  · cases h

theorem tryOne_ok {s0 : Char} {s' a b : List Char} (ha : DigitString a) (hb : DigitString b)
    (h0 : s0 = ':' ∨ s0 = '.' ∨ s0 = '-') :
    tryOne (s0 :: s') (a ++ (s0 :: s') ++ b) = some (List.range' (number a) (number b - number a)) := by
  have ha' : ∀ c ∈ a, c ≠ s0 := by
    intro c hc; have := notSep ha c hc
    rcases h0 with rfl | rfl | rfl <;> tauto
  have hb' : ∀ c ∈ b, c ≠ s0 := by
    intro c hc; have := notSep hb c hc
    rcases h0 with rfl | rfl | rfl <;> tauto
  unfold tryOne
  rw [if_pos (pyIn_append a _ b), split_two ha' hb']
  simp only [(digits_iff a).2 ha, (digits_iff b).2 hb, number_eq]
  rfl

theorem sep_not_digits {a sep b : List Char} (h : sep = ":".toList ∨ sep = "..".toList ∨ sep = "-".toList) :
    ¬ DigitString (a ++ sep ++ b) := by
  rintro ⟨-, h2⟩
  rcases h with rfl | rfl | rfl
  · have := h2 ':' (by simp); revert this; decide
  · have := h2 '.' (by simp); revert this; decide
  · have := h2 '-' (by simp); revert this; decide

/-- The separator is determined by the text. -/
theorem tryOne_other {s0 t0 : Char} {s' t' a b : List Char} (ha : DigitString a) (hb : DigitString b)
    (hs : s0 = ':' ∨ s0 = '.' ∨ s0 = '-') (ht : t0 = ':' ∨ t0 = '.' ∨ t0 = '-') (hne : t0 ≠ s0)
    (hs' : ∀ c ∈ s', c = s0) :
    tryOne (t0 :: t') (a ++ (s0 :: s') ++ b) = none := by
  cases h : tryOne (t0 :: t') (a ++ (s0 :: s') ++ b) with
  | none => rfl
  | some l =>
    exfalso
    obtain ⟨a2, b2, -, -, e, -⟩ := tryOne_some (by simp) h
    have hm : t0 ∈ a ++ (s0 :: s') ++ b := by rw [e]; simp
    rw [List.mem_append, List.mem_append] at hm
    rcases hm with (hm | hm) | hm
    · have := notSep ha _ hm; rcases ht with rfl | rfl | rfl <;> tauto
    · rcases List.mem_cons.1 hm with hm | hm
      · exact hne hm
      · exact hne (hs' _ hm)
    · have := notSep hb _ hm; rcases ht with rfl | rfl | rfl <;> tauto

theorem parseSub_eq (sub : List Char) : parseSub sub =
    let s := sub.filter (· ≠ ' ')
    if isDigits s then .ok [toInt s] else
    match (tryOne [':'] s).or ((tryOne ['.', '.'] s).or (tryOne ['-'] s)) with
    | some l => .ok l
    | none => .error (.sysExit 1) := by
  unfold parseSub
  dsimp only
  split_ifs with h
  · rfl
  · congr 1
    simp only [List.findSome?_cons, List.findSome?_nil]
    cases tryOne [':'] (sub.filter (· ≠ ' ')) <;> cases tryOne ['.', '.'] (sub.filter (· ≠ ' ')) <;>
      cases tryOne ['-'] (sub.filter (· ≠ ' ')) <;> rfl

/-- Items: the parser accepts exactly the items of the grammar, with their value. -/
theorem parseSub_iff (sub : List Char) (l : List ℕ) :
    parseSub sub = .ok l ↔ Item (sub.filter (· ≠ ' ')) l := by
  rw [parseSub_eq]
  dsimp only
  generalize sub.filter (· ≠ ' ') = s
  constructor
  · intro h
    split_ifs at h with hd
    · injection h with h
      rw [← h, number_eq]
      exact .single s ((digits_iff s).1 hd)
    · have key : ∀ sep, (sep = ":".toList ∨ sep = "..".toList ∨ sep = "-".toList) → tryOne sep s = some l →
          Item s l := by
        intro sep hsep ht
        obtain ⟨a, b, ha, hb, e, hl⟩ := tryOne_some (by rcases hsep with rfl | rfl | rfl <;> simp) ht
        rw [e, hl]
        exact .range a sep b _ ha hb hsep (List.pairwise_lt_range' (step := 1) (by norm_num)) (range'_mem _ _)
      cases h1 : tryOne [':'] s with
      | some l' => rw [h1] at h; simp at h; subst h; exact key [':'] (Or.inl rfl) h1
      | none => cases h2 : tryOne ['.', '.'] s with
        | some l' => rw [h1, h2] at h; simp at h; subst h; exact key ['.', '.'] (Or.inr (Or.inl rfl)) h2
        | none => cases h3 : tryOne ['-'] s with
          | some l' => rw [h1, h2, h3] at h; simp at h; subst h; exact key ['-'] (Or.inr (Or.inr rfl)) h3
          | none => rw [h1, h2, h3] at h; simp at h
  · intro h
    cases h with
    | single _ hd => rw [if_pos ((digits_iff _).2 hd), number_eq]
    | range a sep b _ ha hb hsep hp hm =>
      rw [if_neg (by rw [digits_iff]; exact sep_not_digits hsep)]
      have hl : l = List.range' (number a) (number b - number a) :=
        pairwise_unique hp (List.pairwise_lt_range' (step := 1) (by norm_num)) (fun n => by rw [hm, range'_mem])
      rw [hl]
      rcases hsep with rfl | rfl | rfl
      · have := tryOne_ok (s0 := ':') (s' := []) ha hb (by simp)
        rw [show (":".toList) = [':'] from rfl, this]; rfl
      · have := tryOne_ok (s0 := '.') (s' := ['.']) ha hb (by simp)
        have ho := tryOne_other (s0 := '.') (t0 := ':') (s' := ['.']) (t' := []) ha hb (by simp) (by simp) (by decide) (by simp)
        rw [show ("..".toList) = ['.', '.'] from rfl, ho, this]; rfl
      · have := tryOne_ok (s0 := '-') (s' := []) ha hb (by simp)
        have ho := tryOne_other (s0 := '-') (t0 := ':') (s' := []) (t' := []) ha hb (by simp) (by simp) (by decide) (by simp)
        have ho' := tryOne_other (s0 := '-') (t0 := '.') (s' := []) (t' := ['.']) ha hb (by simp) (by simp) (by decide) (by simp)
        rw [show ("-".toList) = ['-'] from rfl, ho, ho', this]; rfl

theorem parseSub_error (sub : List Char) : (∃ l, parseSub sub = .ok l) ∨ parseSub sub = .error (.sysExit 1) := by
  rw [parseSub_eq]
  dsimp only
  split_ifs
  · exact Or.inl ⟨_, rfl⟩
  · split
    · exact Or.inl ⟨_, rfl⟩
    · exact Or.inr rfl

theorem mapM_parse (ps : List (List Char)) (ls : List (List ℕ)) :
    ps.mapM parseSub = .ok ls ↔ List.Forall₂ (fun sub l => Item (sub.filter (· ≠ ' ')) l) ps ls := by
  induction ps generalizing ls with
  | nil =>
    constructor
    · intro h; injection h with h; subst h; exact .nil
    · intro h; cases h; rfl
  | cons p ps ih =>
    rw [List.mapM_cons]
    constructor
    · intro h
      obtain ⟨l, hl, h⟩ := Verif.Lemmas.bind_ok h
      obtain ⟨ls', hls, h⟩ := Verif.Lemmas.bind_ok h
      injection h with h
      subst h
      exact .cons ((parseSub_iff p l).1 hl) ((ih ls').1 hls)
    · intro h
      cases h with
      | cons h1 h2 =>
        rw [(parseSub_iff p _).2 h1, (ih _).2 h2]; rfl

theorem mapM_parse_error (ps : List (List Char)) :
    (∃ ls, ps.mapM parseSub = .ok ls) ∨ ps.mapM parseSub = .error (.sysExit 1) := by
  induction ps with
  | nil => exact Or.inl ⟨[], rfl⟩
  | cons p ps ih =>
    rw [List.mapM_cons]
    rcases parseSub_error p with ⟨l, hl⟩ | hl
    · rw [hl]
      rcases ih with ⟨ls, h⟩ | h
      · rw [h]; exact Or.inl ⟨_, rfl⟩
      · rw [h]; exact Or.inr rfl
    · rw [hl]; exact Or.inr rfl

/-- C29: a non-blank string is accepted with result `v` exactly when every comma separated
item (blanks removed) is a number or a `a:b`, `a..b`, `a-b` range, and `v` is the
concatenation of their values in order. -/
theorem C29_accepts (s : List Char) (hb : ∃ c ∈ s, c ≠ ' ' ∧ c ≠ '\t') (v : List ℕ) :
    parseFibers (some s) = .ok v ↔
      ∃ vs, List.Forall₂ (fun sub l => Item (sub.filter (· ≠ ' ')) l) (s.splitOn ',') vs ∧ v = vs.flatten := by
  simp only [parseFibers]
  rw [if_neg (by
    obtain ⟨c, hc, h1, h2⟩ := hb
    intro h
    rw [List.all_eq_true] at h
    have := h c hc
    simp [h1, h2] at this)]
  constructor
  · intro h
    obtain ⟨ls, hls, h⟩ := Verif.Lemmas.bind_ok h
    injection h with h
    exact ⟨ls, (mapM_parse _ _).1 hls, h.symm⟩
  · rintro ⟨vs, h, rfl⟩
    rw [(mapM_parse _ _).2 h]; rfl

/-- C29: everything else ends the program with exit code 1; no other error occurs. -/
theorem C29_rejects (o : Option (List Char)) :
    (∃ v, parseFibers o = .ok v) ∨ parseFibers o = .error (.sysExit 1) := by
  cases o with
  | none => exact Or.inl ⟨[], rfl⟩
  | some s =>
    simp only [parseFibers]
    split_ifs
    · exact Or.inl ⟨_, rfl⟩
    · rcases mapM_parse_error (s.splitOn ',') with ⟨ls, h⟩ | h
      · rw [h]; exact Or.inl ⟨_, rfl⟩
      · rw [h]; exact Or.inr rfl

/-- C29: `None` and blank strings (spaces and tabs) give the empty array. -/
theorem C29_blank (s : List Char) (h : ∀ c ∈ s, c = ' ' ∨ c = '\t') :
    parseFibers none = .ok [] ∧ parseFibers (some s) = .ok [] := by
  refine ⟨rfl, ?_⟩
  simp only [parseFibers]
  rw [if_pos (by rw [List.all_eq_true]; intro c hc; simpa using h c hc)]

theorem splitOn_filter (s : List Char) :
    (s.filter (· ≠ ' ')).splitOn ',' = (s.splitOn ',').map (·.filter (· ≠ ' ')) := by
  induction s with
  | nil => simp
  | cons c s ih =>
    by_cases hc : c = ','
    · subst hc
      rw [List.filter_cons_of_pos (by decide), List.splitOn_cons_eq_if_modifyHead, List.splitOn_cons_eq_if_modifyHead, ih]
      simp
    · by_cases hsp : c = ' '
      · subst hsp
        rw [List.filter_cons_of_neg (by simp), ih, List.splitOn_cons_eq_if_modifyHead, if_neg (by decide)]
        cases h : s.splitOn ',' with
        | nil => exact absurd h (List.splitOn_ne_nil _ _)
        | cons a l => simp
      · rw [List.filter_cons_of_pos (by simpa using hsp), List.splitOn_cons_eq_if_modifyHead,
          List.splitOn_cons_eq_if_modifyHead, ih, if_neg (by simpa using hc), if_neg (by simpa using hc)]
        cases h : s.splitOn ',' with
        | nil => exact absurd h (List.splitOn_ne_nil _ _)
        | cons a l => simp [hsp]

/-- C29: blanks are irrelevant. -/
theorem C29_blanks (s : List Char) : parseFibers (some (s.filter (· ≠ ' '))) = parseFibers (some s) := by
  have h1 : ∀ p, parseSub (p.filter (· ≠ ' ')) = parseSub p := by
    intro p; unfold parseSub; simp only [List.filter_filter]; simp
  simp only [parseFibers]
  have h2 : ((s.filter (· ≠ ' ')).all fun c => c = ' ' || c = '\t') = s.all fun c => c = ' ' || c = '\t' := by
    induction s with
    | nil => rfl
    | cons c s ih =>
      by_cases hsp : c = ' '
      · subst hsp; rw [List.filter_cons_of_neg (by simp), ih]; simp
      · rw [List.filter_cons_of_pos (by simpa using hsp)]; simp only [List.all_cons, ih]
  have h3 : ((s.filter (· ≠ ' ')).splitOn ',').mapM parseSub = (s.splitOn ',').mapM parseSub := by
    rw [splitOn_filter]
    generalize s.splitOn ',' = ps
    induction ps with
    | nil => rfl
    | cons p ps ih => simp only [List.map_cons, List.mapM_cons, ih, h1]
  rw [h2, h3]

example : parseFibers (some "3, 5:8,10..12, 7".toList) = .ok [3, 5, 6, 7, 10, 11, 7] := by decide +kernel
example : parseFibers (some "1-2-3".toList) = .error (.sysExit 1) := by decide +kernel

end Verif.Props
