import Verif.Model.RayTables
import Mathlib.Data.List.GetD
import Mathlib.Data.List.TakeWhile
import Mathlib.Tactic.Ring
import Mathlib.Tactic.Linarith
import Mathlib.Tactic.NormNum
import Mathlib.Tactic.IntervalCases

/-!
# C96: tables of the ray tracer

`unpackCSV`, the meaning of headers, the surfaces, rays and refractive indices read from the tables.
-/

namespace Verif.Props.RayTables

open Verif.Py Verif.RayTrace
open Verif.Model.Selection (strip)

/-! ## Any table -/

/-- A row with something in it. -/
def Filled (row : List PyStr) : Bool := row.any fun c => !(strip c).isEmpty

/-- The rows that matter: the title and all others that have something in them. -/
def kept (raw : List (List PyStr)) : List (List PyStr) := raw.take 1 ++ (raw.drop 1).filter Filled

theorem strip_nil : strip [] = [] := rfl

theorem row_fold (row : List PyStr) : ∀ (k n : ℕ),
    n ≤ (row.zipIdx k).foldl (fun n cj => if cj.1.length > 0 then max n (cj.2 + 1) else n) n ∧
    (∀ j, row.getD j [] ≠ [] →
      k + j < (row.zipIdx k).foldl (fun n cj => if cj.1.length > 0 then max n (cj.2 + 1) else n) n) ∧
    ((row.zipIdx k).foldl (fun n cj => if cj.1.length > 0 then max n (cj.2 + 1) else n) n = n ∨
      ∃ j, row.getD j [] ≠ [] ∧ (row.zipIdx k).foldl
        (fun n cj => if cj.1.length > 0 then max n (cj.2 + 1) else n) n = k + j + 1) := by
  induction row with
  | nil => intro k n; simp
  | cons c t ih =>
    intro k n
    rw [List.zipIdx_cons, List.foldl_cons]
    dsimp only
    obtain ⟨h1, h2, h3⟩ := ih (k + 1) (if c.length > 0 then max n (k + 1) else n)
    refine ⟨le_trans ?_ h1, ?_, ?_⟩
    · split_ifs
      · exact le_max_left _ _
      · exact le_rfl
    · intro j hj
      cases j with
      | zero =>
        refine lt_of_lt_of_le ?_ h1
        rw [List.getD_cons_zero] at hj
        rw [if_pos (List.length_pos_of_ne_nil hj)]
        exact lt_of_lt_of_le (Nat.lt_succ_self _) (le_max_right _ _)
      | succ j =>
        rw [List.getD_cons_succ] at hj
        have := h2 j hj
        omega
    · rcases h3 with h3 | ⟨j, hj, h3⟩
      · rw [h3]
        split_ifs with hc
        · rcases le_total n (k + 1) with h | h
          · right
            refine ⟨0, ?_, ?_⟩
            · rw [List.getD_cons_zero]; exact List.ne_nil_of_length_pos hc
            · rw [max_eq_right h]
          · left; exact max_eq_left h
        · left; rfl
      · right
        refine ⟨j + 1, ?_, ?_⟩
        · rw [List.getD_cons_succ]; exact hj
        · rw [h3]; omega

theorem nfields_from (data : List (List PyStr)) : ∀ n : ℕ,
    n ≤ data.foldl (fun n row =>
      row.zipIdx.foldl (fun n cj => if cj.1.length > 0 then max n (cj.2 + 1) else n) n) n ∧
    (∀ row ∈ data, ∀ j, row.getD j [] ≠ [] → j < data.foldl (fun n row =>
      row.zipIdx.foldl (fun n cj => if cj.1.length > 0 then max n (cj.2 + 1) else n) n) n) ∧
    (data.foldl (fun n row =>
      row.zipIdx.foldl (fun n cj => if cj.1.length > 0 then max n (cj.2 + 1) else n) n) n = n ∨
      ∃ row ∈ data, ∃ j, row.getD j [] ≠ [] ∧ data.foldl (fun n row =>
      row.zipIdx.foldl (fun n cj => if cj.1.length > 0 then max n (cj.2 + 1) else n) n) n = j + 1) := by
  induction data with
  | nil => intro n; simp
  | cons r t ih =>
    intro n
    rw [List.foldl_cons]
    obtain ⟨a1, a2, a3⟩ := row_fold r 0 n
    obtain ⟨h1, h2, h3⟩ := ih (r.zipIdx.foldl
      (fun n (cj : PyStr × ℕ) => if cj.1.length > 0 then max n (cj.2 + 1) else n) n)
    refine ⟨a1.trans h1, ?_, ?_⟩
    · intro row hrow j hj
      rcases List.mem_cons.1 hrow with rfl | hrow
      · have := a2 j hj
        omega
      · exact h2 row hrow j hj
    · rcases h3 with h3 | ⟨row, hr, j, hj, h3⟩
      · rw [h3]
        rcases a3 with a3 | ⟨j, hj, a3⟩
        · left; exact a3
        · right; exact ⟨r, List.mem_cons_self, j, hj, by rw [a3]; omega⟩
      · right; exact ⟨row, List.mem_cons_of_mem _ hr, j, hj, h3⟩

theorem nfields_lt (data : List (List PyStr)) (row : List PyStr) (h : row ∈ data) (j : ℕ)
    (hj : row.getD j [] ≠ []) : j < nfields data := (nfields_from data 0).2.1 row h j hj

theorem nfields_attained (data : List (List PyStr)) (h : 0 < nfields data) :
    ∃ row ∈ data, row.getD (nfields data - 1) [] ≠ [] := by
  rcases (nfields_from data 0).2.2 with h0 | ⟨row, hr, j, hj, he⟩
  · exact absurd h0 (by unfold nfields at h; omega)
  · refine ⟨row, hr, ?_⟩
    rw [show nfields data = j + 1 from he]
    exact hj

theorem getD_map_strip (row : List PyStr) (j : ℕ) :
    (row.map strip).getD j [] = strip (row.getD j []) := by
  rw [List.getD_eq_getElem?_getD, List.getD_eq_getElem?_getD, List.getElem?_map]
  cases row[j]? <;> rfl

theorem pad_length (n : ℕ) (row : List PyStr) : (pad n row).length = n := by
  unfold pad
  rw [List.length_append, List.length_take, List.length_replicate]
  omega

theorem pad_getD (n : ℕ) (row : List PyStr) (j : ℕ) (h : n ≤ j → row.getD j [] = []) :
    (pad n row).getD j [] = row.getD j [] := by
  unfold pad
  rw [List.getD_eq_getElem?_getD, List.getD_eq_getElem?_getD, List.getElem?_append]
  rw [List.length_take]
  by_cases hj : j < min n row.length
  · rw [if_pos hj, List.getElem?_take, if_pos (by omega)]
  · rw [if_neg hj]
    have hz : row.getD j [] = [] := by
      by_cases hn : n ≤ j
      · exact h hn
      · rw [List.getD_eq_default]; omega
    rw [List.getD_eq_getElem?_getD] at hz
    rw [hz, List.getElem?_replicate]
    split_ifs <;> rfl

theorem clean_eq (raw : List (List PyStr)) :
    (raw.map fun row => row.map strip).take 1 ++
      ((raw.map fun row => row.map strip).drop 1).filter (fun row => !isEmpty row) =
    (kept raw).map fun row => row.map strip := by
  unfold kept
  rw [List.map_append, List.map_take, ← List.map_drop, List.filter_map]
  congr 2
  apply List.filter_congr
  intro row _
  unfold isEmpty Filled
  rw [Function.comp_apply, List.all_map, List.not_all_eq_any_not]
  rfl

/-- **C96** (tables). The table of a file is a rectangle: the title and, in their order, all other
rows with something in them; every cell is that of the file without blanks around it; no cell
with something in it is lost; and there are no more columns than needed. -/
theorem C96_unpack (raw : List (List PyStr)) (h : 3 ≤ raw.length) :
    ∃ n, List.Forall₂ (fun row out => out.length = n ∧
        ∀ j, out.getD j [] = strip (row.getD j [])) (kept raw) (unpack raw) ∧
      ((∃ row ∈ kept raw, Filled row = true) →
        0 < n ∧ ∃ row ∈ kept raw, strip (row.getD (n - 1) []) ≠ []) := by
  have hu : unpack raw = if nfields ((kept raw).map fun row => row.map strip) < 1 then
      (kept raw).map fun row => row.map strip else
      ((kept raw).map fun row => row.map strip).map
        (pad (nfields ((kept raw).map fun row => row.map strip))) := by
    unfold unpack
    rw [if_neg (by omega)]
    dsimp only
    rw [clean_eq]
  have hfill : ∀ row, Filled row = true → ∃ j, (row.map strip).getD j [] ≠ [] := by
    intro row hf
    unfold Filled at hf
    obtain ⟨c, hc, hs⟩ := List.any_eq_true.1 hf
    obtain ⟨j, hj, rfl⟩ := List.getElem_of_mem hc
    refine ⟨j, ?_⟩
    rw [getD_map_strip, List.getD_eq_getElem _ _ hj]
    intro h0
    rw [h0] at hs
    simp at hs
  by_cases hn : nfields ((kept raw).map fun row => row.map strip) < 1
  · rw [if_pos hn] at hu
    have hno : ∀ row ∈ kept raw, ¬ Filled row = true := by
      intro row hr hf
      obtain ⟨j, hj⟩ := hfill row hf
      have := nfields_lt _ _ (List.mem_map_of_mem (f := fun row => row.map strip) hr) j hj
      omega
    obtain ⟨t, rest, rfl⟩ : ∃ t rest, raw = t :: rest := by
      cases raw with
      | nil => simp at h
      | cons t rest => exact ⟨t, rest, rfl⟩
    have hk : kept (t :: rest) = [t] := by
      have : rest.filter Filled = [] := by
        rw [List.filter_eq_nil_iff]
        intro row hr hf
        exact hno row (by unfold kept; simp [hr, hf]) hf
      unfold kept
      simp [this]
    refine ⟨t.length, ?_, ?_⟩
    · rw [hu, hk]
      refine List.Forall₂.cons ⟨by simp, fun j => getD_map_strip t j⟩ List.Forall₂.nil
    · rintro ⟨row, hr, hf⟩
      exact absurd hf (hno row hr)
  · rw [if_neg hn] at hu
    refine ⟨nfields ((kept raw).map fun row => row.map strip), ?_, ?_⟩
    · rw [hu, List.map_map]
      rw [List.forall₂_map_right_iff]
      rw [List.forall₂_same]
      intro row hr
      refine ⟨pad_length _ _, fun j => ?_⟩
      rw [Function.comp_apply, pad_getD, getD_map_strip]
      intro hj
      by_contra hc
      have := nfields_lt _ _ (List.mem_map_of_mem (f := fun row => row.map strip) hr) j hc
      omega
    · intro _
      refine ⟨by omega, ?_⟩
      obtain ⟨row, hr, hj⟩ := nfields_attained
        ((kept raw).map fun row => row.map strip) (by omega)
      obtain ⟨row, hr', rfl⟩ := List.mem_map.1 hr
      exact ⟨row, hr', by rw [← getD_map_strip]; exact hj⟩

/-! ## Headers -/

/-- **C96** (numbers in texts). `suckInt` gives the first number in a text, 0 if there is none. -/
theorem C96_first_number (s : PyStr) :
    (∀ pre ds post, s = pre ++ ds ++ post → (∀ c ∈ pre, isDig c = false) → isDigits ds = true →
      (∀ c, post.head? = some c → isDig c = false) → suckInt s = toInt ds) ∧
    ((∀ c ∈ s, isDig c = false) → suckInt s = 0) := by
  constructor
  · rintro pre ds post rfl hp hd hq
    unfold isDigits at hd
    rw [Bool.and_eq_true, List.all_eq_true] at hd
    obtain ⟨d, t, rfl⟩ : ∃ d t, ds = d :: t := by
      cases ds with
      | nil => simp at hd
      | cons d t => exact ⟨d, t, rfl⟩
    unfold suckInt
    have h1 : (pre ++ (d :: t) ++ post).dropWhile (fun c => !isDig c) = (d :: t) ++ post := by
      rw [List.append_assoc, List.dropWhile_append_of_pos (by intro c hc; rw [hp c hc]; rfl)]
      rw [List.cons_append, List.dropWhile_cons_of_neg]
      rw [hd.2 d List.mem_cons_self]; decide
    rw [h1, List.takeWhile_append_of_pos (fun c hc => hd.2 c hc)]
    have h2 : post.takeWhile isDig = [] := by
      cases post with
      | nil => rfl
      | cons c u =>
        rw [List.takeWhile_cons_of_neg]
        rw [hq c rfl]; decide
    rw [h2, List.append_nil]
  · intro h
    unfold suckInt
    have : s.dropWhile (fun c => !isDig c) = [] := by
      rw [List.dropWhile_eq_nil_iff]
      intro c hc
      rw [h c hc]; rfl
    rw [this]
    rfl

/-- Second and fourth letter of a header, in capitals. -/
def second (s : PyStr) : Char := (s.getD 0 ' ').toUpper

theorem getD_spaces (s : PyStr) (j : ℕ) (hj : j < 6) :
    (s ++ "      ".toList).getD j ' ' = s.getD j ' ' := by
  rw [List.getD_eq_getElem?_getD, List.getD_eq_getElem?_getD, List.getElem?_append]
  by_cases h : j < s.length
  · rw [if_pos h]
  · rw [if_neg h, List.getElem?_eq_none (show s.length ≤ j by omega)]
    obtain ⟨k, hk⟩ : ∃ k, k = j - s.length := ⟨_, rfl⟩
    rw [← hk]
    have : k < 6 := by omega
    interval_cases k <;> rfl

/-- **C96** (headers of optics). What a column of the optics table holds, for all texts after the
letters that decide.  Capitals and small letters are the same, except for `D`, the outer diameter,
and `d`, the inner one. -/
theorem C96_headers (s : PyStr) :
    (getOpticsAttribute ('D' :: s) = .ok 2 ∧ getOpticsAttribute ('d' :: s) = .ok 3) ∧
    (∀ c, c.toUpper = 'C' → getOpticsAttribute (c :: s) = .ok 4) ∧
    (∀ c e, c.toUpper = 'A' → e.toUpper = 'S' → getOpticsAttribute (c :: e :: s) = .ok 5) ∧
    (∀ c, c.toUpper = 'X' → getOpticsAttribute (c :: s) = .ok 6) ∧
    (∀ c, c.toUpper = 'Y' → getOpticsAttribute (c :: s) = .ok 7) ∧
    (∀ c, c.toUpper = 'Z' → second s ≠ 'E' → getOpticsAttribute (c :: s) = .ok 8) ∧
    (∀ c e, c.toUpper = 'T' → e.toUpper = 'I' → getOpticsAttribute (c :: e :: s) = .ok 9) ∧
    (∀ c, c.toUpper = 'P' → getOpticsAttribute (c :: s) = .ok 10) ∧
    (∀ c, c.toUpper = 'R' → getOpticsAttribute (c :: s) = .ok 11) ∧
    (∀ c, c.toUpper = 'I' ∨ c.toUpper = 'G' → getOpticsAttribute (c :: s) = .ok 0) ∧
    (∀ c e, (c.toUpper = 'T' ∧ e.toUpper = 'Y') ∨ (c.toUpper = 'L' ∧ e.toUpper = 'E') ∨
      (c.toUpper = 'M' ∧ e.toUpper = 'I') → getOpticsAttribute (c :: e :: s) = .ok 1) ∧
    (∀ c e, c.toUpper = 'N' → e.toUpper = 'S' → getOpticsAttribute (c :: e :: s) = .ok 30) ∧
    (∀ c e, c.toUpper = 'W' → e.toUpper = 'S' → getOpticsAttribute (c :: e :: s) = .ok 31) := by
  have hne : ∀ (c x : Char), c.toUpper = x → x ≠ 'D' → c ≠ 'D' ∧ c ≠ 'd' := by
    rintro c x h hx
    constructor <;> rintro rfl <;> exact hx (h.symm.trans (by decide))
  refine ⟨⟨?_, ?_⟩, ?_, ?_, ?_, ?_, ?_, ?_, ?_, ?_, ?_, ?_, ?_, ?_⟩
  · simp [getOpticsAttribute]
  · simp [getOpticsAttribute]
  · intro c h
    have := hne c _ h (by decide)
    simp [getOpticsAttribute, h, this]
  · intro c e h h'
    have := hne c _ h (by decide)
    simp [getOpticsAttribute, h, h', this]
  · intro c h
    have := hne c _ h (by decide)
    simp [getOpticsAttribute, h, this]
  · intro c h
    have := hne c _ h (by decide)
    simp [getOpticsAttribute, h, this]
  · intro c h h'
    have := hne c _ h (by decide)
    unfold second at h'
    have h2 : (s ++ "      ".toList).getD 0 ' ' = s.getD 0 ' ' := getD_spaces s 0 (by norm_num)
    unfold getOpticsAttribute
    simp only [List.cons_append, List.getD_cons_zero, List.getD_cons_succ, h2, h, this, h']
    simp
  · intro c e h h'
    have := hne c _ h (by decide)
    simp [getOpticsAttribute, h, h', this]
  · intro c h
    have := hne c _ h (by decide)
    simp [getOpticsAttribute, h, this]
  · intro c h
    have := hne c _ h (by decide)
    simp [getOpticsAttribute, h, this]
  · rintro c (h | h)
    all_goals
      have := hne c _ h (by decide)
      simp [getOpticsAttribute, h, this]
  · rintro c e (⟨h, h'⟩ | ⟨h, h'⟩ | ⟨h, h'⟩)
    all_goals
      have := hne c _ h (by decide)
      simp [getOpticsAttribute, h, h', this]
  · intro c e h h'
    have := hne c _ h (by decide)
    simp [getOpticsAttribute, h, h', this]
  · intro c e h h'
    have := hne c _ h (by decide)
    simp [getOpticsAttribute, h, h', this]

theorem header_A (s : PyStr) (c : Char) (hc : c.toUpper = 'A') (hs : second s ≠ 'S') :
    getOpticsAttribute (c :: s) =
      if suckInt (c :: s) < 15 then .ok (11 + suckInt (c :: s)) else .ok (-1) := by
  have hne : c ≠ 'D' ∧ c ≠ 'd' := by
    constructor <;> rintro rfl <;> exact absurd hc (by decide)
  unfold second at hs
  have h2 : (s ++ "      ".toList).getD 0 ' ' = s.getD 0 ' ' := getD_spaces s 0 (by norm_num)
  unfold getOpticsAttribute
  simp only [List.cons_append, List.getD_cons_zero, List.getD_cons_succ, h2, hc, hne, hs]
  simp

/-- **C96** (coefficients). A header `A` followed by a number from 1 to 14 is that coefficient of
the polynomial; with a larger number the column is ignored. -/
theorem C96_coefficient (c : Char) (hc : c.toUpper = 'A') (ds post : PyStr)
    (hd : isDigits ds = true) (hq : ∀ c, post.head? = some c → isDig c = false) :
    (1 ≤ toInt ds → toInt ds ≤ 14 →
      getOpticsAttribute (c :: ds ++ post) = .ok (12 + ((toInt ds : Int) - 1))) ∧
    (15 ≤ toInt ds → getOpticsAttribute (c :: ds ++ post) = .ok (-1)) := by
  have hcd : isDig c = false := by
    by_contra h
    rw [Bool.not_eq_false] at h
    unfold isDig at h
    rw [Bool.and_eq_true, decide_eq_true_eq, decide_eq_true_eq] at h
    have : c.toUpper = c := by
      unfold Char.toUpper
      rw [dif_neg]
      rintro ⟨h1, _⟩
      have h2 : c.val ≤ '9'.val := h.2
      have h3 : 'a'.val ≤ c.val := h1
      exact absurd (UInt32.le_trans h3 h2) (by decide)
    rw [this] at hc
    subst hc
    exact absurd h.2 (by decide)
  have hn : suckInt (c :: ds ++ post) = toInt ds :=
    (C96_first_number _).1 [c] ds post rfl (by simpa using hcd) hd hq
  have hs : second (ds ++ post) ≠ 'S' := by
    unfold isDigits at hd
    rw [Bool.and_eq_true, List.all_eq_true] at hd
    cases ds with
    | nil => simp at hd
    | cons d t =>
      unfold second
      rw [List.cons_append, List.getD_cons_zero]
      intro h
      have h9 := hd.2 d List.mem_cons_self
      unfold isDig at h9
      rw [Bool.and_eq_true, decide_eq_true_eq, decide_eq_true_eq] at h9
      have : d.toUpper = d := by
        unfold Char.toUpper
        rw [dif_neg]
        rintro ⟨h1, _⟩
        have h2 : d.val ≤ '9'.val := h9.2
        have h3 : 'a'.val ≤ d.val := h1
        exact absurd (UInt32.le_trans h3 h2) (by decide)
      rw [this] at h
      subst h
      exact absurd h9.2 (by decide)
  have he := header_A (ds ++ post) c hc hs
  rw [List.cons_append] at hn ⊢
  rw [hn] at he
  constructor
  · intro h1 h2
    rw [he, if_pos (by omega)]
    congr 1
    ring
  · intro h1
    rw [he, if_neg (by omega)]

/-- **C96** (finding). A header with `A` but no number (a column `Area` or `Author`) is the
roll. -/
theorem C96_bare_A (s : PyStr) (c : Char) (hc : c.toUpper = 'A') (hs : second s ≠ 'S')
    (hn : ∀ d ∈ c :: s, isDig d = false) : getOpticsAttribute (c :: s) = .ok 11 := by
  rw [header_A s c hc hs, (C96_first_number _).2 hn]
  rfl

/-- **C96** (finding). Headers of Zernike coefficients and of sag files, which the code has names
for, end in a `NameError`. -/
theorem C96_undefined_names (s : PyStr) :
    (∀ c e, c.toUpper = 'Z' → e.toUpper = 'E' → suckInt (c :: e :: s) < 36 →
      getOpticsAttribute (c :: e :: s) = .error .nameError) ∧
    (∀ a b d, d.toUpper = 'F' ∨ d.toUpper = 'M' ∨ d.toUpper = 'S' →
      getOpticsAttribute ('S' :: a :: b :: d :: s) = .error .nameError) := by
  constructor
  · intro c e hc he hn
    have hne : c ≠ 'D' ∧ c ≠ 'd' := by
      constructor <;> rintro rfl <;> exact absurd hc (by decide)
    unfold getOpticsAttribute
    simp only [List.cons_append, List.getD_cons_zero, List.getD_cons_succ, hc, hne, he, hn]
    simp
  · rintro a b d (h | h | h)
    all_goals
      unfold getOpticsAttribute
      simp only [List.cons_append, List.getD_cons_zero, List.getD_cons_succ, h]
      simp [show Char.toUpper 'S' = 'S' by decide]

/-- **C96** (actions). Kind of a surface from its text; everything else, also nothing, is a lens. -/
theorem C96_action (s : PyStr) :
    (getActionType s = 1 ↔ ∃ c t, s = c :: t ∧ c.toUpper = 'M') ∧
    (getActionType s = 2 ↔ ∃ c t, s = c :: t ∧ c.toUpper = 'R') ∧
    (getActionType s = 3 ↔ ∃ c t, s = c :: t ∧ c.toUpper = 'I') ∧
    (getActionType s = 4 ↔ ∃ c b d t, s = c :: b :: d :: t ∧ c.toUpper = 'C' ∧ d.toUpper = 'I') ∧
    (getActionType s = 5 ↔ ∃ c b d t, s = c :: b :: d :: t ∧ c.toUpper = 'C' ∧ d.toUpper = 'O') ∧
    0 ≤ getActionType s ∧ getActionType s ≤ 5 := by
  rcases s with _ | ⟨c, _ | ⟨b, _ | ⟨d, t⟩⟩⟩
  · simp [getActionType]
  all_goals
    unfold getActionType
    simp only [List.getD_nil, List.getD_cons_zero, List.getD_cons_succ]
    split_ifs <;> simp_all

/-! ## From columns to rows -/

/-- The cell of a row in the last column whose header stands for `a`; nothing if there is no such
column. -/
def cellOf (attr : PyStr → Option Int) (headers row : List PyStr) (a : Int) : PyStr :=
  match (List.range headers.length).reverse.find? fun i => attr (headers.getD i []) == some a with
  | some i => row.getD i []
  | none => []

/-- The same for the first `m` columns. -/
def cellTo (attr : PyStr → Option Int) (headers row : List PyStr) (a : Int) (m : ℕ) :
    Option PyStr :=
  ((List.range m).reverse.find? fun i => attr (headers.getD i []) == some a).map (row.getD · [])

theorem cellTo_succ (attr : PyStr → Option Int) (headers row : List PyStr) (a : Int) (m : ℕ) :
    cellTo attr headers row a (m + 1) =
      if attr (headers.getD m []) = some a then some (row.getD m [])
      else cellTo attr headers row a m := by
  unfold cellTo
  rw [List.range_succ, List.reverse_append, List.reverse_singleton, List.singleton_append,
    List.find?_cons]
  by_cases h : attr (headers.getD m []) = some a
  · rw [if_pos h]
    simp only [h, BEq.rfl]
    rfl
  · rw [if_neg h]
    rw [show (attr (headers.getD m []) == some a) = false from beq_eq_false_iff_ne.2 h]

theorem cellTo_all (attr : PyStr → Option Int) (headers row : List PyStr) (a : Int) :
    cellOf attr headers row a = (cellTo attr headers row a headers.length).getD [] := by
  unfold cellOf cellTo
  cases (List.range headers.length).reverse.find? fun i => attr (headers.getD i []) == some a <;> rfl

/-- Filling of one row from left to right. -/
def rowOf {α : Type} (put : Option Int → PyStr → α → α) (attr : PyStr → Option Int)
    (headers row : List PyStr) (init : α) (m : ℕ) : α :=
  (List.range m).foldl (fun o i => put (attr (headers.getD i [])) (row.getD i []) o) init

theorem rowOf_succ {α : Type} (put : Option Int → PyStr → α → α) (attr : PyStr → Option Int)
    (headers row : List PyStr) (init : α) (m : ℕ) :
    rowOf put attr headers row init (m + 1) =
      put (attr (headers.getD m [])) (row.getD m []) (rowOf put attr headers row init m) := by
  unfold rowOf
  rw [List.range_succ, List.foldl_append]
  rfl

theorem rowOf_read {α β : Type} (put : Option Int → PyStr → α → α) (attr : PyStr → Option Int)
    (headers row : List PyStr) (init : α) (a : Int) (read : α → β) (entry : PyStr → β)
    (h1 : ∀ c o, read (put (some a) c o) = entry c)
    (h2 : ∀ b c o, b ≠ some a → read (put b c o) = read o) (m : ℕ) :
    read (rowOf put attr headers row init m) =
      ((cellTo attr headers row a m).map entry).getD (read init) := by
  induction m with
  | zero => rfl
  | succ m ih =>
    rw [rowOf_succ, cellTo_succ]
    by_cases h : attr (headers.getD m []) = some a
    · rw [if_pos h, h, h1]
      rfl
    · rw [if_neg h, h2 _ _ _ h, ih]

theorem zip_rows {α : Type} (R : List (List PyStr)) (g : List PyStr → α) (i : ℕ)
    (f : α → PyStr → α) :
    List.zipWith f (R.map g) (column R i) = R.map fun r => f (g r) (r.getD i []) := by
  unfold column
  induction R with
  | nil => rfl
  | cons r t ih =>
    rw [List.map_cons, List.map_cons, List.zipWith_cons_cons, ih, List.map_cons]

/-! ## Surfaces -/

/-- The attribute of a header of the optics table. -/
def opticsAttr (header : PyStr) : Option Int := (getOpticsAttribute header).toOption

/-- The surface a row stands for: every property is that of the last column with a header for it,
0 if there is none or the text is not a number. -/
noncomputable def surfaceOf (num : PyStr → Option ℝ) (headers row : List PyStr) : Surf :=
  let cell := cellOf opticsAttr headers row
  let x := fun a : Int => cellNumber num (cell a)
  { action := getActionType (cell 1), odiam := x 2, idiam := x 3, curve := x 4, asph := x 5,
    vertex := ⟨x 6, x 7, x 8⟩, tilt := x 9, pitch := x 10, roll := x 11,
    hasPoly := (List.range 14).any fun i => decide (x (12 + i) ≠ 0),
    poly := (List.range 14).map fun i => x (12 + i),
    legs := trunc (x 30), legWidth := x 31, glass := cell 0 }

/-- What a field does to one row. -/
def putO (num : PyStr → Option ℝ) (a : Option Int) (c : PyStr) (o : ORow) : ORow :=
  match a with
  | none => o
  | some a =>
    if a = 0 then { o with glass := c }
    else if a = 1 then { o with action := getActionType c }
    else if 0 ≤ a ∧ a < 32 then
      { o with num := Function.update o.num a.toNat (cellNumber num c) }
    else o

theorem ite_or {α : Type} (Q : α → Prop) (P : Prop) [Decidable P] (x y : α) (hx : Q x) (hy : Q y) :
    Q (if P then x else y) := by
  by_cases h : P
  · rw [if_pos h]; exact hx
  · rw [if_neg h]; exact hy

theorem error_name (header : PyStr) (e : PyErr) (h : getOpticsAttribute header = .error e) :
    e = .nameError := by
  have : ∀ e, getOpticsAttribute header = .error e → e = .nameError := by
    unfold getOpticsAttribute
    dsimp only
    iterate 19
      refine ite_or (fun x : Except PyErr Int => ∀ e, x = .error e → e = .nameError) _ _ _
        (fun e h => by first | exact (Except.error.inj h).symm | cases h) ?_
    intro e h
    cases h
  exact this e h

theorem setField_rows (num : PyStr → Option ℝ) (R : List (List PyStr)) (g : List PyStr → ORow)
    (i : ℕ) (header : PyStr) (a : Int) (h : getOpticsAttribute header = .ok a) :
    setField num (R.map g) (header, column R i) =
      .ok (R.map fun r => putO num (some a) (r.getD i []) (g r)) := by
  unfold setField
  dsimp only
  rw [h]
  dsimp only
  by_cases h0 : a = 0
  · rw [if_pos h0, zip_rows]
    simp only [putO, if_pos h0]
  · rw [if_neg h0]
    by_cases h1 : a = 1
    · rw [if_pos h1, zip_rows]
      simp only [putO, if_neg h0, if_pos h1]
    · rw [if_neg h1]
      by_cases h2 : 0 ≤ a ∧ a < 32
      · rw [if_pos h2, zip_rows]
        simp only [putO, if_neg h0, if_neg h1, if_pos h2]
      · rw [if_neg h2]
        simp only [putO, if_neg h0, if_neg h1, if_neg h2]

/-- The columns of a table with their headers. -/
def fields (headers : List PyStr) (R : List (List PyStr)) (m : ℕ) : List (PyStr × List PyStr) :=
  (List.range m).map fun i => (headers.getD i [], column R i)

theorem fields_succ (headers : List PyStr) (R : List (List PyStr)) (m : ℕ) :
    fields headers R (m + 1) = fields headers R m ++ [(headers.getD m [], column R m)] := by
  unfold fields
  rw [List.range_succ, List.map_append]
  rfl

theorem optics_fold (num : PyStr → Option ℝ) (headers : List PyStr) (R : List (List PyStr))
    (init : ORow) (m : ℕ) (h : ∀ i < m, ∃ a, getOpticsAttribute (headers.getD i []) = .ok a) :
    (fields headers R m).foldlM (setField num) (R.map fun _ => init) =
      .ok (R.map fun r => rowOf (putO num) opticsAttr headers r init m) := by
  induction m with
  | zero => rfl
  | succ m ih =>
    obtain ⟨a, ha⟩ := h m (Nat.lt_succ_self m)
    rw [fields_succ, List.foldlM_append, ih (fun i hi => h i (by omega))]
    have ho : opticsAttr (headers.getD m []) = some a := by unfold opticsAttr; rw [ha]; rfl
    simp only [rowOf_succ, ho]
    show List.foldlM (setField num) _ [(headers.getD m [], column R m)] = _
    rw [List.foldlM_cons, setField_rows num R _ m _ a ha]
    rfl

theorem optics_fold_error (num : PyStr → Option ℝ) (headers : List PyStr) (R : List (List PyStr))
    (init : ORow) (m : ℕ) (h : ∃ i < m, ∃ e, getOpticsAttribute (headers.getD i []) = .error e) :
    (fields headers R m).foldlM (setField num) (R.map fun _ => init) = .error .nameError := by
  induction m with
  | zero => obtain ⟨i, hi, _⟩ := h; omega
  | succ m ih =>
    rw [fields_succ, List.foldlM_append]
    by_cases h' : ∃ i < m, ∃ e, getOpticsAttribute (headers.getD i []) = .error e
    · rw [ih h']
      rfl
    · rw [optics_fold num headers R init m]
      · obtain ⟨i, hi, e, he⟩ := h
        have him : i = m := by
          by_contra hc
          exact h' ⟨i, by omega, e, he⟩
        subst him
        show List.foldlM (setField num) _ [(headers.getD i [], column R i)] = _
        rw [List.foldlM_cons]
        have : ∀ rows, setField num rows (headers.getD i [], column R i) = .error .nameError := by
          intro rows
          unfold setField
          dsimp only
          rw [he, error_name _ _ he]
        rw [this]
        rfl
      · intro i hi
        cases hx : getOpticsAttribute (headers.getD i []) with
        | error e => exact absurd ⟨i, hi, e, hx⟩ h'
        | ok a => exact ⟨a, rfl⟩

theorem rowOf_surf (num : PyStr → Option ℝ) (headers row : List PyStr) :
    (rowOf (putO num) opticsAttr headers row ⟨fun _ => 0, 0, []⟩ headers.length).surf =
      surfaceOf num headers row := by
  have hx : ∀ a : ℕ, 2 ≤ a → a < 32 →
      (rowOf (putO num) opticsAttr headers row ⟨fun _ => 0, 0, []⟩ headers.length).num a =
        cellNumber num (cellOf opticsAttr headers row a) := by
    intro a h2 h32
    rw [rowOf_read (putO num) opticsAttr headers row _ a (fun o => o.num a) (cellNumber num)]
    · rw [cellTo_all]
      cases cellTo opticsAttr headers row a headers.length <;> rfl
    · intro c o
      unfold putO
      dsimp only
      rw [if_neg (by omega), if_neg (by omega), if_pos (by omega)]
      simp
    · intro b c o hb
      unfold putO
      cases b with
      | none => rfl
      | some b =>
        dsimp only
        split_ifs with h0 h1 h3
        · rfl
        · rfl
        · dsimp only
          rw [Function.update_of_ne]
          intro h
          apply hb
          congr 1
          omega
        · rfl
  have hg : (rowOf (putO num) opticsAttr headers row ⟨fun _ => 0, 0, []⟩ headers.length).glass =
      cellOf opticsAttr headers row 0 := by
    rw [rowOf_read (putO num) opticsAttr headers row _ 0 (fun o => o.glass) id]
    · rw [cellTo_all]
      cases cellTo opticsAttr headers row 0 headers.length <;> rfl
    · intro c o
      rfl
    · intro b c o hb
      unfold putO
      cases b with
      | none => rfl
      | some b =>
        dsimp only
        rw [if_neg (fun h => hb (by rw [h]))]
        split_ifs <;> rfl
  have ha : (rowOf (putO num) opticsAttr headers row ⟨fun _ => 0, 0, []⟩ headers.length).action =
      getActionType (cellOf opticsAttr headers row 1) := by
    rw [rowOf_read (putO num) opticsAttr headers row _ 1 (fun o => o.action) getActionType]
    · rw [cellTo_all]
      cases cellTo opticsAttr headers row 1 headers.length <;> rfl
    · intro c o
      rfl
    · intro b c o hb
      unfold putO
      cases b with
      | none => rfl
      | some b =>
        dsimp only
        split_ifs with h0 h1
        · rfl
        · exact absurd (by rw [h1]) hb
        · rfl
        · rfl
  unfold ORow.surf surfaceOf
  dsimp only
  rw [hg, ha, hx 2 (by norm_num) (by norm_num), hx 3 (by norm_num) (by norm_num),
    hx 4 (by norm_num) (by norm_num), hx 5 (by norm_num) (by norm_num),
    hx 6 (by norm_num) (by norm_num), hx 7 (by norm_num) (by norm_num),
    hx 8 (by norm_num) (by norm_num), hx 9 (by norm_num) (by norm_num),
    hx 10 (by norm_num) (by norm_num), hx 11 (by norm_num) (by norm_num),
    hx 30 (by norm_num) (by norm_num), hx 31 (by norm_num) (by norm_num)]
  have hp : ∀ i ∈ List.range 14,
      (rowOf (putO num) opticsAttr headers row ⟨fun _ => 0, 0, []⟩ headers.length).num (12 + i) =
        cellNumber num (cellOf opticsAttr headers row (12 + (i : Int))) := by
    intro i hi
    rw [List.mem_range] at hi
    rw [hx (12 + i) (by omega) (by omega)]
    push_cast
    rfl
  congr 1
  · rw [Bool.eq_iff_iff, List.any_eq_true, List.any_eq_true]
    constructor
    · rintro ⟨i, hi, h⟩
      exact ⟨i, hi, by rw [hp i hi] at h; exact h⟩
    · rintro ⟨i, hi, h⟩
      exact ⟨i, hi, by rw [hp i hi]; exact h⟩
  · exact List.map_congr_left hp

theorem rectangular (raw : List (List PyStr)) (title headers : List PyStr)
    (rows : List (List PyStr)) (hT : unpack raw = title :: headers :: rows) (hr : rows ≠ []) :
    headers.length = title.length ∧ ∀ r ∈ rows, r.length = title.length := by
  have h3 : 3 ≤ raw.length := by
    by_contra h
    unfold unpack at hT
    rw [if_pos (by omega)] at hT
    rw [hT] at h
    cases rows with
    | nil => exact hr rfl
    | cons r t => simp at h
  obtain ⟨n, hf, _⟩ := C96_unpack raw h3
  have hall : ∀ out ∈ unpack raw, out.length = n := by
    intro out ho
    obtain ⟨i, hi, rfl⟩ := List.getElem_of_mem ho
    have := (List.forall₂_iff_get.1 hf).2 i (by rw [hf.length_eq]; exact hi) hi
    exact this.1
  rw [hT] at hall
  have ht := hall title (by simp)
  refine ⟨by rw [ht]; exact hall headers (by simp), fun r h => ?_⟩
  rw [ht]
  exact hall r (by simp [h])

/-- **C96** (optics). The surfaces are those of the rows of the table, in order, as many as the
number in the title says, if it says one; each property of a surface is in the last column with a
header for it. -/
theorem C96_optics (num : PyStr → Option ℝ) (raw : List (List PyStr))
    (title headers : List PyStr) (rows : List (List PyStr))
    (hT : unpack raw = title :: headers :: rows) (hr : rows ≠ []) (hc : 2 ≤ title.length)
    (hd : ∀ h ∈ headers, ∃ a, getOpticsAttribute h = .ok a) :
    getOptics num (some raw) = .ok ((rows.take
      (if suckInt (title.getD 0 []) = 0 then rows.length else suckInt (title.getD 0 []))).map
        (surfaceOf num headers)) := by
  obtain ⟨hl, _⟩ := rectangular raw title headers rows hT hr
  have hlen : 0 < rows.length := List.length_pos_of_ne_nil hr
  unfold getOptics openCSV
  show (match unpack raw with
    | [] => Except.error PyErr.indexError
    | title :: rest => _) = _
  rw [hT]
  dsimp only
  rw [if_neg (by rw [List.length_cons, List.length_cons]; omega)]
  simp only [List.length_cons, List.getD_cons_zero, List.drop_succ_cons, List.drop_zero]
  have hn : ∀ k, (rows.take (guided (rows.length + 1 + 1 - 2) k)) =
      rows.take (if k = 0 then rows.length else k) := by
    intro k
    unfold guided
    by_cases hk : k = 0
    · rw [if_neg (by omega), if_pos hk]; rfl
    · rw [if_pos (by omega), if_neg hk, show rows.length + 1 + 1 - 2 = rows.length by omega,
        List.take_eq_take_iff]
      omega
  have hrep : ∀ k (o : ORow), List.replicate (guided (rows.length + 1 + 1 - 2) k) o =
      (rows.take (guided (rows.length + 1 + 1 - 2) k)).map fun _ => o := by
    intro k o
    rw [List.map_const', List.length_take]
    congr 1
    unfold guided
    split_ifs <;> omega
  rw [hrep, hn]
  have := optics_fold num headers (rows.take (if suckInt (title.getD 0 []) = 0 then rows.length
    else suckInt (title.getD 0 []))) ⟨fun _ => 0, 0, []⟩ title.length (by
      intro i hi
      rw [List.getD_eq_getElem _ _ (show i < headers.length by omega)]
      exact hd _ (List.getElem_mem _))
  unfold fields at this
  rw [this]
  show Except.ok _ = Except.ok _
  congr 1
  rw [List.map_map]
  apply List.map_congr_left
  intro r _
  rw [Function.comp_apply, ← hl]
  exact rowOf_surf num headers r

/-- **C96** (optics refused). A file that cannot be opened ends the program; an empty one is an
`IndexError`; a table with fewer than three rows or two columns, or with a header for names that
do not exist, is a `NameError` instead of the message the code has for it. -/
theorem C96_optics_refused (num : PyStr → Option ℝ) :
    getOptics num none = .error (.sysExit 0) ∧
    getOptics num (some []) = .error .indexError ∧
    (∀ raw title rest, unpack raw = title :: rest → rest.length < 2 ∨ title.length < 2 →
      getOptics num (some raw) = .error .nameError) ∧
    (∀ raw title headers rows, unpack raw = title :: headers :: rows → rows ≠ [] →
      2 ≤ title.length → (∃ h ∈ headers, ∃ e, getOpticsAttribute h = .error e) →
      getOptics num (some raw) = .error .nameError) := by
  refine ⟨rfl, rfl, ?_, ?_⟩
  · intro raw title rest hT h
    unfold getOptics openCSV
    show (match unpack raw with
      | [] => Except.error PyErr.indexError
      | title :: rest => _) = _
    rw [hT]
    dsimp only
    rw [if_pos]
    rw [List.length_cons]
    omega
  · rintro raw title headers rows hT hr hc ⟨h, hh, e, he⟩
    obtain ⟨hl, _⟩ := rectangular raw title headers rows hT hr
    have hlen : 0 < rows.length := List.length_pos_of_ne_nil hr
    unfold getOptics openCSV
    show (match unpack raw with
      | [] => Except.error PyErr.indexError
      | title :: rest => _) = _
    rw [hT]
    dsimp only
    rw [if_neg (by rw [List.length_cons, List.length_cons]; omega)]
    simp only [List.length_cons, List.getD_cons_zero, List.drop_succ_cons, List.drop_zero]
    have hrep : ∀ k (o : ORow), List.replicate (guided (rows.length + 1 + 1 - 2) k) o =
        (rows.take (guided (rows.length + 1 + 1 - 2) k)).map fun _ => o := by
      intro k o
      rw [List.map_const', List.length_take]
      congr 1
      unfold guided
      split_ifs <;> omega
    rw [hrep]
    have := optics_fold_error num headers (rows.take (guided (rows.length + 1 + 1 - 2)
      (suckInt (title.getD 0 [])))) ⟨fun _ => 0, 0, []⟩ title.length (by
        obtain ⟨i, hi, rfl⟩ := List.getElem_of_mem hh
        exact ⟨i, by omega, e, by rw [List.getD_eq_getElem _ _ hi]; exact he⟩)
    unfold fields at this
    rw [this]
    rfl

/-- **C96** (finding). Every header that begins with `C` is the curvature, also `Comments`: a last
column of comments makes all surfaces flat. -/
theorem C96_comments (num : PyStr → Option ℝ) (headers row : List PyStr) (s c : PyStr)
    (hl : row.length = headers.length) (hc : num c = none) :
    (surfaceOf num (headers ++ ['C' :: s]) (row ++ [c])).curve = 0 := by
  unfold surfaceOf
  dsimp only
  rw [cellTo_all, List.length_append, List.length_singleton, cellTo_succ]
  have h1 : (headers ++ ['C' :: s]).getD headers.length [] = 'C' :: s := by
    rw [List.getD_append_right _ _ _ _ le_rfl, Nat.sub_self]; rfl
  have h2 : (row ++ [c]).getD headers.length [] = c := by
    rw [← hl, List.getD_append_right _ _ _ _ le_rfl, Nat.sub_self]; rfl
  rw [h1, h2, if_pos (by unfold opticsAttr; rw [(C96_headers s).2.1 'C' (by decide)]; rfl)]
  unfold cellNumber
  rw [Option.getD_some, hc]
  split_ifs <;> rfl

/-- A table with a title, headers and two surfaces, with blanks and an empty line. -/
def small : List (List PyStr) :=
  [["2 surfaces".toList, "test".toList, []], ["type".toList, "Curve".toList, " A12 ".toList], [[], " ".toList],
   ["mirror".toList, " 0.5".toList, "7".toList], ["image".toList, "0".toList]]

/-- The hypotheses of `C96_unpack` and `C96_optics` can be met. -/
example : 3 ≤ small.length ∧ (∃ row ∈ kept small, Filled row = true) ∧
    ∃ title headers rows, unpack small = title :: headers :: rows ∧ rows.length = 2 ∧ 2 ≤ title.length ∧
      (headers.map getOpticsAttribute).map Except.toOption = [some 1, some 4, some 23] := by
  refine ⟨by decide, ⟨_, List.mem_cons_self, by decide⟩, _, _, _, rfl, by decide, by decide, by decide⟩

/-- Headers `a12x` (the twelfth coefficient), `A15` (too many) and `Alpha` (no number). -/
example : (getOpticsAttribute "a12x".toList = .ok 23 ∧ getOpticsAttribute "A15".toList = .ok (-1)) ∧
    getOpticsAttribute "Alpha".toList = .ok 11 :=
  ⟨⟨(C96_coefficient 'a' (by decide) "12".toList "x".toList (by decide) (by rintro c ⟨⟩; decide)).1 (by decide) (by decide),
    (C96_coefficient 'A' (by decide) "15".toList [] (by decide) (by rintro c ⟨⟩)).2 (by decide)⟩,
    C96_bare_A "lpha".toList 'A' (by decide) (by decide) (by decide)⟩

end Verif.Props.RayTables
