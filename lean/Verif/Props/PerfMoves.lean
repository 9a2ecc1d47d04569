import Verif.Model.PerfMoves
import Verif.Props.PerfRead
import Verif.Props.FpMetrology

/-!
# C84: moves identified by `analyze_pos_performance`
-/

namespace Verif.Props
open Verif.Py Verif.Model
open Verif.Model.PerfMoves

namespace Pfm

/-- The second word of a text, words being separated by single spaces. -/
def Word2 (t a : PyStr) : Prop :=
  ∃ w rest, t = w ++ ' ' :: (a ++ rest) ∧ ' ' ∉ w ∧ ' ' ∉ a ∧ (rest = [] ∨ ∃ u, rest = ' ' :: u)

/-- The number in a token: its second word. -/
def Val (n : Num) (t : PyStr) (v : ℤ) : Prop := ∃ a, Word2 t a ∧ n.int a = .ok v

/-- `v` comes from the last of the tokens with `P`, and is `d` if there is none. -/
def LastVal {β : Type} (P : PyStr → Prop) (val : PyStr → β → Prop) (d : β) (ts : List PyStr) (v : β) : Prop :=
  ((∀ t ∈ ts, ¬ P t) ∧ v = d) ∨ ∃ pre t post, ts = pre ++ t :: post ∧ P t ∧ (∀ u ∈ post, ¬ P u) ∧ val t v

/-- Tokens giving the index in a sequence. -/
def IsSeq (t : PyStr) : Prop := "sequence_move_idx".toList <+: t

/-- Tokens giving the move. -/
def IsMove (t : PyStr) : Prop := "move".toList <+: t ∧ ¬ "move_to_range".toList <:+: t

/-- Tokens giving the submove. -/
def IsSub (t : PyStr) : Prop := "submove".toList <+: t

/-- Tokens with requested angles. -/
def IsTP (t : PyStr) : Prop := "req_posintTP".toList <+: t

/-- Tokens with a requested position. -/
def IsXYZ (t : PyStr) : Prop := "req_ptlXYZ".toList <+: t

/-- Number `i` in the value of a token. -/
def Entry (n : Num) (t : PyStr) (i : ℕ) (v : Option ℝ) : Prop := ∃ a, (reqPieces t)[i]? = some a ∧ n.float a = .ok v

/-- A command with an absolute position. -/
def Absolute (cmd : PyStr) : Prop :=
  ∃ c ∈ ["QS".toList, "obsXY".toList, "poslocXY".toList, "ptlXY".toList, "posintTP".toList, "poslocTP".toList],
    cmd = c ∨ ∃ v, cmd = c ++ '=' :: v

/-! ### Splitting -/

theorem split_first {c : Char} {a s : PyStr} (ha : c ∉ a) : split [c] (a ++ c :: s) = a :: split [c] s := by
  obtain ⟨l, l1, l2, l3⟩ := Sel.exists_join c s
  have e : a ++ c :: s = joinWith c (a :: l) := by
    cases l with
    | nil => exact absurd rfl l1
    | cons b l => rw [← l3]; simp [joinWith]
  rw [e, Sel.split_join c (a :: l) (by simp) (by
    intro p hp
    rcases List.mem_cons.1 hp with rfl | hp
    · exact ha
    · exact (l2 p hp).1), ← l3, Sel.split_join c l l1 (fun p hp => (l2 p hp).1)]

theorem split_none {c : Char} {a : PyStr} (ha : c ∉ a) : split [c] a = [a] := by
  have := Sel.split_join c [a] (by simp) (by simpa using ha)
  simpa [joinWith] using this

theorem split_cases (c : Char) (s : PyStr) : (c ∉ s ∧ split [c] s = [s]) ∨ ∃ a b, s = a ++ c :: b ∧ c ∉ a ∧ split [c] s = a :: split [c] b := by
  by_cases h : c ∈ s
  · obtain ⟨a, b, e, ha⟩ := List.eq_append_cons_of_mem h
    exact Or.inr ⟨a, b, e, ha, by rw [e, split_first ha]⟩
  · exact Or.inl ⟨h, split_none h⟩

theorem word2_iff (t a : PyStr) : (split [' '] t)[1]? = some a ↔ Word2 t a := by
  unfold Word2
  constructor
  · intro h
    rcases split_cases ' ' t with ⟨-, e⟩ | ⟨w, b, e, hw, e1⟩
    · rw [e] at h; simp at h
    · rw [e1] at h
      rcases split_cases ' ' b with ⟨hb, e2⟩ | ⟨x, u, e2, hx, e3⟩
      · rw [e2] at h
        obtain rfl : b = a := by simpa using h
        exact ⟨w, [], by simpa using e, hw, hb, Or.inl rfl⟩
      · rw [e3] at h
        obtain rfl : x = a := by simpa using h
        exact ⟨w, ' ' :: u, by rw [e, e2], hw, hx, Or.inr ⟨u, rfl⟩⟩
  · rintro ⟨w, rest, rfl, hw, ha, h⟩
    rw [split_first hw]
    rcases h with rfl | ⟨u, rfl⟩
    · rw [List.append_nil, split_none ha]; rfl
    · rw [split_first ha]; rfl

theorem item_iff (l : List PyStr) (i : ℕ) (a : PyStr) : item l i = .ok a ↔ l[i]? = some a := by
  unfold item
  cases l[i]? with
  | none => simp
  | some s => simp

theorem bind_ok_iff {α β : Type} (x : Except PyErr α) (f : α → Except PyErr β) (b : β) :
    (x >>= f) = .ok b ↔ ∃ a, x = .ok a ∧ f a = .ok b := by
  cases x with
  | error e => simp [bind, Except.bind]
  | ok a => simp [bind, Except.bind]

theorem parseVal_iff (n : Num) (t : PyStr) (v : ℤ) : parseVal n t = .ok v ↔ Val n t v := by
  unfold parseVal Val
  rw [bind_ok_iff]
  simp only [item_iff, word2_iff]

theorem num_iff (n : Num) (t : PyStr) (i : ℕ) (v : Option ℝ) : num n (reqPieces t) i = .ok v ↔ Entry n t i v := by
  unfold num Entry
  rw [bind_ok_iff]
  simp only [item_iff]

theorem absolute_iff (cmd : PyStr) : absCoords.contains (coordOf cmd) = true ↔ Absolute cmd := by
  unfold Absolute
  have hc : ∀ c : PyStr, '=' ∉ c → (coordOf cmd = c ↔ cmd = c ∨ ∃ v, cmd = c ++ '=' :: v) := by
    intro c hc
    unfold coordOf
    rcases split_cases '=' cmd with ⟨h, e⟩ | ⟨a, b, e, ha, e1⟩
    · rw [e]
      constructor
      · intro h'; exact Or.inl h'
      · rintro (h' | ⟨v, h'⟩)
        · exact h'
        · exact absurd (by rw [h']; simp) h
    · rw [e1]
      show a = c ↔ _
      constructor
      · rintro rfl; exact Or.inr ⟨b, e⟩
      · rintro (h' | ⟨v, h'⟩)
        · exact absurd (by rw [← h', e]; simp) hc
        · have h2 := split_first (c := '=') (s := v) hc
          rw [← h', e1] at h2
          injection h2
  rw [List.contains_iff_mem]
  constructor
  · intro h
    refine ⟨coordOf cmd, h, (hc _ ?_).1 rfl⟩
    have : ∀ x ∈ absCoords, '=' ∉ x := by decide
    exact this _ h
  · rintro ⟨c, h, h'⟩
    have : ∀ x ∈ absCoords, '=' ∉ x := by decide
    rw [(hc c (this c h)).2 h']
    exact h

/-! ### The loop over the tokens -/

theorem foldlM_last {σ β : Type} (f : σ → PyStr → Except PyErr σ) (π : σ → β) (P : PyStr → Prop) (val : PyStr → β → Prop)
    (h1 : ∀ s t s', f s t = .ok s' → P t → val t (π s')) (h2 : ∀ s t s', f s t = .ok s' → ¬ P t → π s' = π s)
    (ts : List PyStr) : ∀ (s s' : σ), ts.foldlM f s = .ok s' → LastVal P val (π s) ts (π s') := by
  induction ts with
  | nil =>
    intro s s' h
    have : s = s' := by simpa [pure, Except.pure] using h
    exact Or.inl ⟨by simp, by rw [this]⟩
  | cons t ts ih =>
    intro s s' h
    rw [List.foldlM_cons, bind_ok_iff] at h
    obtain ⟨m, hm, h⟩ := h
    rcases ih m s' h with ⟨g1, g2⟩ | ⟨pre, u, post, e, g⟩
    · by_cases hp : P t
      · exact Or.inr ⟨[], t, ts, rfl, hp, g1, by rw [g2]; exact h1 _ _ _ hm hp⟩
      · refine Or.inl ⟨?_, by rw [g2, h2 _ _ _ hm hp]⟩
        intro x hx
        rcases List.mem_cons.1 hx with rfl | hx
        · exact hp
        · exact g1 x hx
    · exact Or.inr ⟨t :: pre, u, post, by rw [e]; rfl, g⟩

/-- As before, with the state met by the last token. -/
theorem foldlM_state {σ β : Type} (f : σ → PyStr → Except PyErr σ) (π : σ → β) (P : PyStr → Prop) (val : σ → PyStr → β → Prop)
    (h1 : ∀ s t s', f s t = .ok s' → P t → val s t (π s')) (h2 : ∀ s t s', f s t = .ok s' → ¬ P t → π s' = π s)
    (ts : List PyStr) : ∀ (s s' : σ), ts.foldlM f s = .ok s' → ((∀ t ∈ ts, ¬ P t) ∧ π s' = π s) ∨
      ∃ pre t post s1, ts = pre ++ t :: post ∧ P t ∧ (∀ u ∈ post, ¬ P u) ∧ pre.foldlM f s = .ok s1 ∧ val s1 t (π s') := by
  induction ts with
  | nil =>
    intro s s' h
    have : s = s' := by simpa [pure, Except.pure] using h
    exact Or.inl ⟨by simp, by rw [this]⟩
  | cons t ts ih =>
    intro s s' h
    rw [List.foldlM_cons, bind_ok_iff] at h
    obtain ⟨m, hm, h⟩ := h
    rcases ih m s' h with ⟨g1, g2⟩ | ⟨pre, u, post, s1, e, g3, g4, g5, g6⟩
    · by_cases hp : P t
      · exact Or.inr ⟨[], t, ts, s, rfl, hp, g1, rfl, by rw [g2]; exact h1 _ _ _ hm hp⟩
      · refine Or.inl ⟨?_, by rw [g2, h2 _ _ _ hm hp]⟩
        intro x hx
        rcases List.mem_cons.1 hx with rfl | hx
        · exact hp
        · exact g1 x hx
    · refine Or.inr ⟨t :: pre, u, post, s1, by rw [e]; rfl, g3, g4, ?_, g6⟩
      rw [List.foldlM_cons, bind_ok_iff]
      exact ⟨m, hm, g5⟩

theorem stepSeq_ok {n : Num} {s s' : TokSt} {t : PyStr} (h : stepSeq n s t = .ok s') :
    s'.move = s.move ∧ s'.sub = s.sub ∧ s'.req = s.req ∧ (IsSeq t → ∃ v, s'.seq = some v ∧ Val n t v) ∧ (¬ IsSeq t → s'.seq = s.seq) := by
  unfold stepSeq at h
  unfold IsSeq
  rw [← List.isPrefixOf_iff_prefix]
  split_ifs at h with hp
  · obtain ⟨v, hv, h⟩ := (bind_ok_iff _ _ _).1 h
    injection h with h; subst h
    exact ⟨rfl, rfl, rfl, fun _ => ⟨v, rfl, (parseVal_iff _ _ _).1 hv⟩, fun h' => absurd hp h'⟩
  · injection h with h; subst h
    exact ⟨rfl, rfl, rfl, fun h' => absurd h' hp, fun _ => rfl⟩

theorem stepMove_ok {n : Num} {s s' : TokSt} {t : PyStr} (h : stepMove n s t = .ok s') :
    s'.seq = s.seq ∧ s'.sub = s.sub ∧ s'.req = s.req ∧ (IsMove t → ∃ v, s'.move = some v ∧ Val n t v) ∧ (¬ IsMove t → s'.move = s.move) := by
  unfold stepMove at h
  have hI : IsMove t ↔ ("move".toList.isPrefixOf t && !pyIn "move_to_range".toList t) = true := by
    unfold IsMove
    rw [← List.isPrefixOf_iff_prefix, ← Fvj.infix_of_pyIn]
    simp only [Bool.and_eq_true, Bool.not_eq_true', Bool.not_eq_true]
  rw [hI]
  split_ifs at h with hp
  · obtain ⟨v, hv, h⟩ := (bind_ok_iff _ _ _).1 h
    injection h with h; subst h
    exact ⟨rfl, rfl, rfl, fun _ => ⟨v, rfl, (parseVal_iff _ _ _).1 hv⟩, fun h' => absurd hp h'⟩
  · injection h with h; subst h
    exact ⟨rfl, rfl, rfl, fun h' => absurd h' hp, fun _ => rfl⟩

theorem stepSub_ok {n : Num} {s s' : TokSt} {t : PyStr} (h : stepSub n s t = .ok s') :
    s'.seq = s.seq ∧ s'.move = s.move ∧ s'.req = s.req ∧ (IsSub t → Val n t s'.sub) ∧ (¬ IsSub t → s'.sub = s.sub) := by
  unfold stepSub at h
  unfold IsSub
  rw [← List.isPrefixOf_iff_prefix]
  split_ifs at h with hp
  · obtain ⟨v, hv, h⟩ := (bind_ok_iff _ _ _).1 h
    injection h with h; subst h
    exact ⟨rfl, rfl, rfl, fun _ => (parseVal_iff _ _ _).1 hv, fun h' => absurd hp h'⟩
  · injection h with h; subst h
    exact ⟨rfl, rfl, rfl, fun h' => absurd h' hp, fun _ => rfl⟩

theorem stepTP_ok {n : Num} {s s' : TokSt} {t : PyStr} (h : stepTP n s t = .ok s') :
    s'.seq = s.seq ∧ s'.move = s.move ∧ s'.sub = s.sub ∧ s'.req.x = s.req.x ∧ s'.req.y = s.req.y ∧ s'.req.z = s.req.z ∧
    (IsTP t → Entry n t 0 s'.req.t ∧ Entry n t 1 s'.req.p) ∧ (¬ IsTP t → s'.req.t = s.req.t ∧ s'.req.p = s.req.p) := by
  unfold stepTP at h
  unfold IsTP
  rw [← List.isPrefixOf_iff_prefix]
  split_ifs at h with hp
  · obtain ⟨a, ha, h⟩ := (bind_ok_iff _ _ _).1 h
    obtain ⟨b, hb, h⟩ := (bind_ok_iff _ _ _).1 h
    injection h with h; subst h
    exact ⟨rfl, rfl, rfl, rfl, rfl, rfl, fun _ => ⟨(num_iff _ _ _ _).1 ha, (num_iff _ _ _ _).1 hb⟩, fun h' => absurd hp h'⟩
  · injection h with h; subst h
    exact ⟨rfl, rfl, rfl, rfl, rfl, rfl, fun h' => absurd h' hp, fun _ => ⟨rfl, rfl⟩⟩

/-- The request of a position read from a token, when the submove known so far is `sub`. -/
def Xyz {ρ : Type} (n : Num) (r : Row ρ) (prev : ℝ × ℝ) (sub : ℤ) (t : PyStr) (x y z : Option ℝ) : Prop :=
  Entry n t 2 z ∧ (∃ v, Entry n t 0 v ∧ (¬ ("dXdY".toList <:+: coordOf r.cmd ∧ 0 < sub) → x = v)) ∧
  (∃ v, Entry n t 1 v ∧ (¬ ("dXdY".toList <:+: coordOf r.cmd ∧ 0 < sub) → y = v)) ∧
  ("dXdY".toList <:+: coordOf r.cmd ∧ 0 < sub → ∃ d, delta n r.cmd = .ok d ∧ corrected (coordOf r.cmd) r.petalLoc prev d = (x, y))

theorem stepXYZ_ok {ρ : Type} {n : Num} {r : Row ρ} {prev : ℝ × ℝ} {s s' : TokSt} {t : PyStr} (h : stepXYZ n r prev s t = .ok s') :
    s'.seq = s.seq ∧ s'.move = s.move ∧ s'.sub = s.sub ∧ s'.req.t = s.req.t ∧ s'.req.p = s.req.p ∧
    (IsXYZ t → Xyz n r prev s.sub t s'.req.x s'.req.y s'.req.z) ∧
    (¬ IsXYZ t → s'.req.x = s.req.x ∧ s'.req.y = s.req.y ∧ s'.req.z = s.req.z) := by
  unfold stepXYZ at h
  unfold IsXYZ Xyz
  rw [← List.isPrefixOf_iff_prefix]
  by_cases hp : "req_ptlXYZ".toList.isPrefixOf t = true
  · rw [if_pos hp] at h
    obtain ⟨a, ha, h⟩ := (bind_ok_iff _ _ _).1 h
    obtain ⟨b, hb, h⟩ := (bind_ok_iff _ _ _).1 h
    obtain ⟨c, hc, h⟩ := (bind_ok_iff _ _ _).1 h
    rw [num_iff] at ha hb hc
    have hk : (pyIn "dXdY".toList (coordOf r.cmd) && decide (s.sub > 0)) = true ↔ "dXdY".toList <:+: coordOf r.cmd ∧ 0 < s.sub := by
      rw [Bool.and_eq_true, Fvj.infix_of_pyIn, decide_eq_true_iff]
    rw [← hk]
    by_cases hh : (pyIn "dXdY".toList (coordOf r.cmd) && decide (s.sub > 0)) = true
    · rw [if_pos hh] at h
      obtain ⟨d, hd, h⟩ := (bind_ok_iff _ _ _).1 h
      injection h with h; subst h
      exact ⟨rfl, rfl, rfl, rfl, rfl, fun _ => ⟨hc, ⟨a, ha, fun h' => absurd hh h'⟩, ⟨b, hb, fun h' => absurd hh h'⟩,
        fun _ => ⟨d, hd, rfl⟩⟩, fun h' => absurd hp h'⟩
    · rw [if_neg hh] at h
      injection h with h; subst h
      exact ⟨rfl, rfl, rfl, rfl, rfl, fun _ => ⟨hc, ⟨a, ha, fun _ => rfl⟩, ⟨b, hb, fun _ => rfl⟩, fun h' => absurd h' hh⟩, fun h' => absurd hp h'⟩
  · rw [if_neg hp] at h
    injection h with h; subst h
    exact ⟨rfl, rfl, rfl, rfl, rfl, fun h' => absurd h' hp, fun _ => ⟨rfl, rfl, rfl⟩⟩

theorem not_sub_of_xyz {t : PyStr} (h : IsXYZ t) : ¬ IsSub t := by
  rintro ⟨u, rfl⟩
  obtain ⟨v, e⟩ := h
  have : ("req_ptlXYZ".toList ++ v).head? = ("submove".toList ++ u).head? := by rw [e]
  revert this
  simp

theorem step_ok {ρ : Type} {n : Num} {r : Row ρ} {prev : ℝ × ℝ} {s s' : TokSt} {t : PyStr} (h : step n r prev s t = .ok s') :
    (IsSeq t → ∃ v, s'.seq = some v ∧ Val n t v) ∧ (¬ IsSeq t → s'.seq = s.seq) ∧
    (IsMove t → ∃ v, s'.move = some v ∧ Val n t v) ∧ (¬ IsMove t → s'.move = s.move) ∧
    (IsSub t → Val n t s'.sub) ∧ (¬ IsSub t → s'.sub = s.sub) ∧
    (IsTP t → Entry n t 0 s'.req.t ∧ Entry n t 1 s'.req.p) ∧ (¬ IsTP t → s'.req.t = s.req.t ∧ s'.req.p = s.req.p) ∧
    (IsXYZ t → Xyz n r prev s.sub t s'.req.x s'.req.y s'.req.z) ∧
    (¬ IsXYZ t → s'.req.x = s.req.x ∧ s'.req.y = s.req.y ∧ s'.req.z = s.req.z) := by
  unfold step at h
  obtain ⟨s1, h1, h⟩ := (bind_ok_iff _ _ _).1 h
  obtain ⟨s2, h2, h⟩ := (bind_ok_iff _ _ _).1 h
  obtain ⟨s3, h3, h⟩ := (bind_ok_iff _ _ _).1 h
  obtain ⟨s4, h4, h⟩ := (bind_ok_iff _ _ _).1 h
  obtain ⟨a1, a2, a3, a4, a5⟩ := stepSeq_ok h1
  obtain ⟨b1, b2, b3, b4, b5⟩ := stepMove_ok h2
  obtain ⟨c1, c2, c3, c4, c5⟩ := stepSub_ok h3
  obtain ⟨d1, d2, d3, d4, d5, d6, d7, d8⟩ := stepTP_ok h4
  obtain ⟨e1, e2, e3, e4, e5, e6, e7⟩ := stepXYZ_ok h
  refine ⟨?_, ?_, ?_, ?_, ?_, ?_, ?_, ?_, ?_, ?_⟩
  · rw [e1, d1, c1, b1]; exact a4
  · rw [e1, d1, c1, b1]; exact a5
  · rw [e2, d2, c2]; exact b4
  · rw [e2, d2, c2, ← a1]; exact b5
  · rw [e3, d3]; exact c4
  · rw [e3, d3, ← a2, ← b2]; exact c5
  · rw [e4, e5]; exact d7
  · rw [e4, e5, ← a3, ← b3, ← c3]; exact d8
  · intro hx
    have := e6 hx
    rwa [d3, c5 (not_sub_of_xyz hx), b2, a2] at this
  · rw [← a3, ← b3, ← c3, ← d4, ← d5, ← d6]; exact e7

/-- What the note of a row says: the columns of `o`, when the submove is `start` before the note is read. -/
structure Decoded {ρ : Type} (n : Num) (prev : ℝ × ℝ) (start : ℤ) (r : Row ρ) (seq move : Option ℤ) (sub : ℤ) (req : Req) : Prop where
  seq : LastVal IsSeq (fun t v => ∃ k, v = some k ∧ Val n t k) none (PerfRead.tokens r.note) seq
  move : LastVal IsMove (fun t v => ∃ k, v = some k ∧ Val n t k) none (PerfRead.tokens r.note) move
  sub : LastVal IsSub (Val n) start (PerfRead.tokens r.note) sub
  tp : LastVal IsTP (fun t v => Entry n t 0 v.1 ∧ Entry n t 1 v.2) (none, none) (PerfRead.tokens r.note) (req.t, req.p)
  xyz : ((∀ t ∈ PerfRead.tokens r.note, ¬ IsXYZ t) ∧ req.x = none ∧ req.y = none ∧ req.z = none) ∨
    ∃ pre t post k, PerfRead.tokens r.note = pre ++ t :: post ∧ IsXYZ t ∧ (∀ u ∈ post, ¬ IsXYZ u) ∧
      LastVal IsSub (Val n) start pre k ∧ Xyz n r prev k t req.x req.y req.z

theorem decoded {ρ : Type} {n : Num} {prev : ℝ × ℝ} {start : ℤ} {r : Row ρ} {s : TokSt}
    (h : (PerfRead.tokens r.note).foldlM (step n r prev) ⟨none, none, start, ⟨none, none, none, none, none⟩⟩ = .ok s) :
    Decoded n prev start r s.seq s.move s.sub s.req := by
  have hsub : ∀ (ts : List PyStr) (s0 s' : TokSt), ts.foldlM (step n r prev) s0 = .ok s' → LastVal IsSub (Val n) s0.sub ts s'.sub :=
    foldlM_last (step n r prev) TokSt.sub IsSub (Val n) (fun s t s' h => (step_ok h).2.2.2.2.1) (fun s t s' h => (step_ok h).2.2.2.2.2.1)
  refine ⟨?_, ?_, ?_, ?_, ?_⟩
  · exact foldlM_last (step n r prev) TokSt.seq IsSeq (fun t v => ∃ k, v = some k ∧ Val n t k)
      (fun s t s' h hp => by obtain ⟨v, e, hv⟩ := (step_ok h).1 hp; exact ⟨v, e, hv⟩) (fun s t s' h => (step_ok h).2.1) _ _ _ h
  · exact foldlM_last (step n r prev) TokSt.move IsMove (fun t v => ∃ k, v = some k ∧ Val n t k)
      (fun s t s' h hp => by obtain ⟨v, e, hv⟩ := (step_ok h).2.2.1 hp; exact ⟨v, e, hv⟩) (fun s t s' h => (step_ok h).2.2.2.1) _ _ _ h
  · exact hsub _ _ _ h
  · exact foldlM_last (step n r prev) (fun s => (s.req.t, s.req.p)) IsTP (fun t v => Entry n t 0 v.1 ∧ Entry n t 1 v.2)
      (fun s t s' h hp => (step_ok h).2.2.2.2.2.2.1 hp)
      (fun s t s' h hp => by obtain ⟨e1, e2⟩ := (step_ok h).2.2.2.2.2.2.2.1 hp; rw [e1, e2]) _ _ _ h
  · rcases foldlM_state (step n r prev) (fun s => (s.req.x, s.req.y, s.req.z)) IsXYZ
      (fun s t v => Xyz n r prev s.sub t v.1 v.2.1 v.2.2)
      (fun s t s' h hp => (step_ok h).2.2.2.2.2.2.2.2.1 hp)
      (fun s t s' h hp => by obtain ⟨e1, e2, e3⟩ := (step_ok h).2.2.2.2.2.2.2.2.2 hp; rw [e1, e2, e3]) _ _ _ h with
      ⟨g1, g2⟩ | ⟨pre, t, post, s1, g1, g2, g3, g4, g5⟩
    · dsimp only at g2
      simp only [Prod.mk.injEq] at g2
      exact Or.inl ⟨g1, g2⟩
    · exact Or.inr ⟨pre, t, post, s1.sub, g1, g2, g3, hsub _ _ _ g4, g5⟩

/-! ### The loop over the rows -/

/-- One turn of the loop. -/
def Turn {ρ : Type} (n : Num) (prev : ℝ × ℝ) (st : Option (ℤ × ℤ × ℤ)) (r : Row ρ) (o : Out ρ) : Prop :=
  ∃ c0 s0, ((c0 = -1 ∧ s0 = -1 ∧ (∀ e c s, st = some (e, c, s) → r.expid ≠ e)) ∨ st = some (r.expid, c0, s0)) ∧
    o.row = r ∧ o.counter = c0 + 1 ∧ Decoded n prev (startSub r.cmd s0) r o.seq o.move o.sub o.req

theorem loop_turns {ρ : Type} (n : Num) (rows : List (Row ρ)) : ∀ (prev : ℝ × ℝ) (st : Option (ℤ × ℤ × ℤ)) (outs : List (Out ρ)),
    loop n prev st rows = .ok outs → outs.map Out.row = rows ∧
      (∀ o, outs[0]? = some o → Turn n prev st o.row o) ∧
      ∀ i o q, outs[i]? = some o → outs[i + 1]? = some q → Turn n o.row.xy (some (o.row.expid, o.counter, o.sub)) q.row q := by
  induction rows with
  | nil =>
    intro prev st outs h
    injection h with h
    subst h
    exact ⟨rfl, by simp, by simp⟩
  | cons r rest ih =>
    intro prev st outs h
    rw [loop] at h
    obtain ⟨s, hs, h⟩ := (bind_ok_iff _ _ _).1 h
    obtain ⟨tail, ht, h⟩ := (bind_ok_iff _ _ _).1 h
    injection h with h
    obtain ⟨i1, i2, i3⟩ := ih _ _ _ ht
    have hd := decoded hs
    subst h
    refine ⟨by rw [List.map_cons, i1], ?_, ?_⟩
    · intro o ho
      obtain rfl := (by simpa using ho : _ = o)
      cases st with
      | none => exact ⟨-1, -1, Or.inl ⟨rfl, rfl, by simp⟩, rfl, rfl, hd⟩
      | some st =>
        obtain ⟨e, c, s1⟩ := st
        by_cases he : r.expid = e
        · have hc : carry (some (e, c, s1)) r.expid = (c, s1) := by unfold carry; dsimp only; rw [if_neg (not_not.2 he)]
          rw [hc] at hd ⊢
          exact ⟨c, s1, Or.inr (by rw [he]), rfl, rfl, hd⟩
        · have hc : carry (some (e, c, s1)) r.expid = (-1, -1) := by unfold carry; dsimp only; rw [if_pos he]
          rw [hc] at hd ⊢
          refine ⟨-1, -1, Or.inl ⟨rfl, rfl, ?_⟩, rfl, rfl, hd⟩
          intro e' c' s' h'
          injection h' with h'
          simp only [Prod.mk.injEq] at h'
          rw [← h'.1]; exact he
    · intro i o q ho hq
      cases i with
      | zero =>
        obtain rfl := (by simpa using ho : _ = o)
        exact i2 q (by simpa using hq)
      | succ i => exact i3 i o q (by simpa using ho) (by simpa using hq)

theorem identify_turns {ρ : Type} {n : Num} {rows : List (Row ρ)} {outs : List (Out ρ)} (h : identify n rows = .ok outs) :
    ∃ z, rows.getLast? = some z ∧ outs.map Out.row = rows ∧ (∀ o, outs[0]? = some o → Turn n z.xy none o.row o) ∧
      ∀ i o q, outs[i]? = some o → outs[i + 1]? = some q → Turn n o.row.xy (some (o.row.expid, o.counter, o.sub)) q.row q := by
  unfold identify at h
  cases hz : rows.getLast? with
  | none => rw [hz] at h; cases h
  | some z =>
    rw [hz] at h
    exact ⟨z, rfl, loop_turns n rows _ _ _ h⟩

/-- Row `i` begins its exposure: it is the first row, or the row before belongs to another one. -/
def Begins {ρ : Type} (outs : List (Out ρ)) (i : ℕ) : Prop :=
  ∀ j o q, i = j + 1 → outs[j]? = some o → outs[i]? = some q → o.row.expid ≠ q.row.expid

/-- The measured position taken for the one before row `i`. -/
def Before {ρ : Type} (outs : List (Out ρ)) (i : ℕ) (xy : ℝ × ℝ) : Prop :=
  (i = 0 ∧ ∃ z, outs.getLast? = some z ∧ xy = z.row.xy) ∨ ∃ j o, i = j + 1 ∧ outs[j]? = some o ∧ xy = o.row.xy

/-- The submove of row `i` before its note is read. -/
def Start {ρ : Type} (outs : List (Out ρ)) (i : ℕ) (start : ℤ) : Prop :=
  ∃ q, outs[i]? = some q ∧ ((Absolute q.row.cmd ∧ start = 0) ∨ (¬ Absolute q.row.cmd ∧ Begins outs i ∧ start = 0) ∨
    (¬ Absolute q.row.cmd ∧ ¬ Begins outs i ∧ ∃ j o, i = j + 1 ∧ outs[j]? = some o ∧ start = o.sub + 1))

theorem startSub_abs {cmd : PyStr} (h : Absolute cmd) (s : ℤ) : startSub cmd s = 0 := by
  unfold startSub; rw [if_pos ((absolute_iff cmd).2 h)]

theorem startSub_rel {cmd : PyStr} (h : ¬ Absolute cmd) (s : ℤ) : startSub cmd s = s + 1 := by
  unfold startSub; rw [if_neg (fun h' => h ((absolute_iff cmd).1 h'))]

theorem row_spec {ρ : Type} {n : Num} {rows : List (Row ρ)} {outs : List (Out ρ)} (h : identify n rows = .ok outs) (i : ℕ) (q : Out ρ)
    (hq : outs[i]? = some q) :
    (∃ xy start, Before outs i xy ∧ Start outs i start ∧ Decoded n xy start q.row q.seq q.move q.sub q.req) ∧
    (Begins outs i → q.counter = 0) ∧ (∀ j o, i = j + 1 → outs[j]? = some o → ¬ Begins outs i → q.counter = o.counter + 1) := by
  obtain ⟨z, hz, hrows, h0, h1⟩ := identify_turns h
  cases i with
  | zero =>
    obtain ⟨c0, s0, hc, -, hcount, hd⟩ := h0 q hq
    have hb : Begins outs 0 := fun j o q e => by omega
    have hcs : c0 = -1 ∧ s0 = -1 := by
      rcases hc with ⟨a, b, -⟩ | h'
      · exact ⟨a, b⟩
      · cases h'
    refine ⟨⟨z.xy, _, ?_, ?_, hd⟩, fun _ => by rw [hcount, hcs.1]; rfl, fun j o e => by omega⟩
    · left
      refine ⟨rfl, ?_⟩
      rw [← hrows, List.getLast?_map] at hz
      cases hl : outs.getLast? with
      | none => rw [hl] at hz; cases hz
      | some o =>
        rw [hl] at hz
        injection hz with hz
        exact ⟨o, rfl, by rw [← hz]⟩
    · refine ⟨q, hq, ?_⟩
      by_cases ha : Absolute q.row.cmd
      · exact Or.inl ⟨ha, startSub_abs ha _⟩
      · exact Or.inr (Or.inl ⟨ha, hb, by rw [startSub_rel ha, hcs.2]; rfl⟩)
  | succ i =>
    have hi : i < outs.length := by
      have := (List.getElem?_eq_some_iff.1 hq).1
      omega
    obtain ⟨o, ho⟩ : ∃ o, outs[i]? = some o := ⟨_, List.getElem?_eq_getElem hi⟩
    obtain ⟨c0, s0, hc, -, hcount, hd⟩ := h1 i o q ho hq
    have hbe : Begins outs (i + 1) ↔ o.row.expid ≠ q.row.expid := by
      constructor
      · intro hb; exact hb i o q rfl ho hq
      · intro hne j o' q' e ho' hq'
        obtain rfl : i = j := by omega
        rw [ho] at ho'; rw [hq] at hq'
        injection ho' with ho'; injection hq' with hq'
        subst ho' hq'
        exact hne
    have hcs : (Begins outs (i + 1) → c0 = -1 ∧ s0 = -1) ∧ (¬ Begins outs (i + 1) → c0 = o.counter ∧ s0 = o.sub) := by
      rw [hbe]
      rcases hc with ⟨a, b, hne⟩ | h'
      · exact ⟨fun _ => ⟨a, b⟩, fun h' => absurd (fun e => hne _ _ _ rfl e.symm) h'⟩
      · injection h' with h'
        simp only [Prod.mk.injEq] at h'
        exact ⟨fun hne => absurd h'.1 hne, fun _ => ⟨h'.2.1.symm, h'.2.2.symm⟩⟩
    refine ⟨⟨o.row.xy, _, Or.inr ⟨i, o, rfl, ho, rfl⟩, ⟨q, hq, ?_⟩, hd⟩, fun hb => by rw [hcount, (hcs.1 hb).1]; rfl, ?_⟩
    · by_cases ha : Absolute q.row.cmd
      · exact Or.inl ⟨ha, startSub_abs ha _⟩
      · by_cases hb : Begins outs (i + 1)
        · exact Or.inr (Or.inl ⟨ha, hb, by rw [startSub_rel ha, (hcs.1 hb).2]; rfl⟩)
        · exact Or.inr (Or.inr ⟨ha, hb, i, o, rfl, ho, by rw [startSub_rel ha, (hcs.2 hb).2]⟩)
    · intro j o' e ho' hb
      obtain rfl : i = j := by omega
      rw [ho] at ho'
      injection ho' with ho'
      rw [hcount, (hcs.2 hb).1, ho']

/-! ### Texts of notes and commands -/

theorem dropWhile_all {c : Char} {a r : PyStr} (ha : ∀ x ∈ a, x = c) : (a ++ r).dropWhile (· == c) = r.dropWhile (· == c) := by
  induction a with
  | nil => rfl
  | cons x a ih =>
    rw [List.cons_append, List.dropWhile_cons_of_pos (by simp [ha x (by simp)]), ih fun y hy => ha y (by simp [hy])]

theorem dropWhile_none {c : Char} {m r : PyStr} (hm : c ∉ m) (hne : m ≠ []) : (m ++ r).dropWhile (· == c) = m ++ r := by
  cases m with
  | nil => exact absurd rfl hne
  | cons x m =>
    rw [List.cons_append, List.dropWhile_cons_of_neg]
    simp only [beq_iff_eq]
    rintro rfl
    exact hm (by simp)

theorem stripC_eq {c : Char} {a m b : PyStr} (ha : ∀ x ∈ a, x = c) (hb : ∀ x ∈ b, x = c) (hm : c ∉ m) : stripC c (a ++ m ++ b) = m := by
  unfold stripC
  rw [List.append_assoc, dropWhile_all ha]
  by_cases hne : m = []
  · subst hne
    have := dropWhile_all (r := []) hb
    rw [List.append_nil] at this
    simp [this]
  · rw [dropWhile_none hm hne, List.reverse_append, dropWhile_all (by simpa using hb)]
    have := dropWhile_none (c := c) (m := m.reverse) (r := []) (by simpa using hm) (by simpa using hne)
    rw [List.append_nil] at this
    rw [this, List.reverse_reverse]

theorem mem_joinWith {c x : Char} {l : List PyStr} (h : x ∈ joinWith c l) : x = c ∨ ∃ p ∈ l, x ∈ p := by
  induction l with
  | nil => simp [joinWith] at h
  | cons a l ih =>
    cases l with
    | nil => exact Or.inr ⟨a, by simp, by simpa [joinWith] using h⟩
    | cons b l =>
      rw [show joinWith c (a :: b :: l) = a ++ c :: joinWith c (b :: l) by simp [joinWith]] at h
      rcases List.mem_append.1 h with h | h
      · exact Or.inr ⟨a, by simp, h⟩
      · rcases List.mem_cons.1 h with h | h
        · exact Or.inl h
        · rcases ih h with h | ⟨p, hp, h⟩
          · exact Or.inl h
          · exact Or.inr ⟨p, by simp [hp], h⟩

theorem not_pyIn_bar {s : PyStr} (h : '|' ∉ s) : pyIn ['|', '|'] s = false ∧ pyIn ['|'] s = false := by
  constructor
  · rw [← Bool.not_eq_true, Fvj.infix_of_pyIn]
    intro h'; exact h (h'.subset (by simp))
  · rw [← Bool.not_eq_true, Fvj.infix_of_pyIn]
    intro h'; exact h (h'.subset (by simp))

theorem splitNote_comma {l : List PyStr} (hl : 2 ≤ l.length) (h : ∀ p ∈ l, ',' ∉ p ∧ '|' ∉ p) : splitNote (joinWith ',' l) = l := by
  have hb : '|' ∉ joinWith ',' l := by
    intro hx
    rcases mem_joinWith hx with e | ⟨p, hp, hx⟩
    · revert e; decide
    · exact (h p hp).2 hx
  obtain ⟨e1, e2⟩ := not_pyIn_bar hb
  have e3 : pyIn [','] (joinWith ',' l) = true := by
    rw [Fvj.infix_of_pyIn]
    match l, hl with
    | a :: b :: l, _ => exact ⟨a, joinWith ',' (b :: l), by simp [joinWith]⟩
  unfold splitNote
  rw [e1, e2, e3]
  exact Sel.split_join ',' l (by rintro rfl; simp at hl) (fun p hp => (h p hp).1)

/-- The piece before the first separator, when something without the separator comes first. -/
theorem split_item0 {c : Char} (u : PyStr) : ∃ u0, (∃ v, u = u0 ++ v) ∧ (split [c] u)[0]? = some u0 ∧ c ∉ u0 := by
  rcases split_cases c u with ⟨h, e⟩ | ⟨a, b, e, ha, e1⟩
  · exact ⟨u, ⟨[], by simp⟩, by rw [e]; rfl, h⟩
  · exact ⟨a, ⟨c :: b, e⟩, by rw [e1]; rfl, ha⟩

theorem delta_text (n : Num) (c a b rest : PyStr) (hc : '=' ∉ c) (ha : ∀ x ∈ a, x ∉ ['=', '[', ']', ',', ';']) (hb : ∀ x ∈ b, x ∉ ['=', '[', ']', ',', ';'])
    (hr : rest = [] ∨ ∃ u, rest = ';' :: u) (dx dy : Option ℝ) (hx : n.float a = .ok dx) (hy : n.float b = .ok dy) :
    delta n (c ++ '=' :: ('[' :: (a ++ ',' :: b) ++ [']'] ++ rest)) = .ok (dx, dy) := by
  have nm : ∀ ch, ch ∈ ['=', '[', ']', ';'] → ch ∉ a ++ ',' :: b := by
    intro ch hch hm
    rcases List.mem_append.1 hm with h | h
    · exact ha _ h (by revert hch; simp; tauto)
    · rcases List.mem_cons.1 h with h | h
      · rw [h] at hch; revert hch; decide
      · exact hb _ h (by revert hch; simp; tauto)
  have hbody : ∀ ch, ch ∈ ['=', ';'] → ch ∉ '[' :: (a ++ ',' :: b) ++ [']'] := by
    intro ch hch hm
    rcases List.mem_append.1 hm with h | h
    · rcases List.mem_cons.1 h with h | h
      · rw [h] at hch; revert hch; decide
      · exact nm ch (by revert hch; simp; tauto) h
    · rw [List.mem_singleton] at h
      rw [h] at hch; revert hch; decide
  have hv : ∃ v, item (split ['='] (c ++ '=' :: ('[' :: (a ++ ',' :: b) ++ [']'] ++ rest))) 1 = .ok v ∧ (split [';'] v).headD [] = '[' :: (a ++ ',' :: b) ++ [']'] := by
    rw [split_first hc]
    rcases hr with rfl | ⟨u, rfl⟩
    · rw [List.append_nil]
      refine ⟨_, by rw [split_none (hbody '=' (by simp))]; rfl, ?_⟩
      rw [split_none (hbody ';' (by simp))]; rfl
    · rcases split_cases '=' u with ⟨h, -⟩ | ⟨u0, u1, e, h0, -⟩
      · refine ⟨'[' :: (a ++ ',' :: b) ++ [']'] ++ ';' :: u, ?_, ?_⟩
        · rw [split_none]; · rfl
          intro hm
          rcases List.mem_append.1 hm with hm | hm
          · exact hbody '=' (by simp) hm
          · rcases List.mem_cons.1 hm with hm | hm
            · revert hm; decide
            · exact h hm
        · rw [split_first (hbody ';' (by simp))]; rfl
      · refine ⟨'[' :: (a ++ ',' :: b) ++ [']'] ++ ';' :: u0, ?_, ?_⟩
        · rw [show '[' :: (a ++ ',' :: b) ++ [']'] ++ ';' :: u = ('[' :: (a ++ ',' :: b) ++ [']'] ++ ';' :: u0) ++ '=' :: u1 by rw [e]; simp, split_first]
          · rfl
          intro hm
          rcases List.mem_append.1 hm with hm | hm
          · exact hbody '=' (by simp) hm
          · rcases List.mem_cons.1 hm with hm | hm
            · revert hm; decide
            · exact h0 hm
        · rw [split_first (hbody ';' (by simp))]; rfl
  obtain ⟨v, e1, e2⟩ := hv
  have e3 : stripC '[' ('[' :: (a ++ ',' :: b) ++ [']']) = (a ++ ',' :: b) ++ [']'] := by
    have := stripC_eq (c := '[') (a := ['[']) (m := (a ++ ',' :: b) ++ [']']) (b := []) (by simp) (by simp) (by
      intro hm
      rcases List.mem_append.1 hm with hm | hm
      · exact nm '[' (by simp) hm
      · revert hm; decide)
    simpa using this
  have e4 : stripC ']' ((a ++ ',' :: b) ++ [']']) = a ++ ',' :: b := by
    have := stripC_eq (c := ']') (a := []) (m := a ++ ',' :: b) (b := [']']) (by simp) (by simp) (nm ']' (by simp))
    simpa using this
  have e5 : split [','] (a ++ ',' :: b) = [a, b] := by
    rw [split_first (fun h => ha _ h (by simp)), split_none (fun h => hb _ h (by simp))]
  unfold delta
  rw [bind_ok_iff]
  refine ⟨v, e1, ?_⟩
  dsimp only
  rw [e2, e3, e4, e5]
  unfold num item
  simp only [List.getElem?_cons_zero, List.getElem?_cons_succ]
  show (n.float a >>= fun dx => n.float b >>= fun dy => pure (dx, dy)) = _
  rw [hx, hy]
  rfl

/-- A token can be read. -/
structure Readable (n : Num) (t : PyStr) : Prop where
  seq : IsSeq t → ∃ v, Val n t v
  move : IsMove t → ∃ v, Val n t v
  sub : IsSub t → ∃ v, Val n t v
  tp : IsTP t → ∃ a b, Entry n t 0 a ∧ Entry n t 1 b
  xyz : IsXYZ t → ∃ a b c, Entry n t 0 a ∧ Entry n t 1 b ∧ Entry n t 2 c

theorem step_readable {ρ : Type} {n : Num} {r : Row ρ} {prev : ℝ × ℝ} {s s' : TokSt} {t : PyStr} (h : step n r prev s t = .ok s') : Readable n t := by
  obtain ⟨h1, -, h2, -, h3, -, h4, -, h5, -⟩ := step_ok h
  refine ⟨fun hp => ?_, fun hp => ?_, fun hp => ⟨_, h3 hp⟩, fun hp => ⟨_, _, h4 hp⟩, fun hp => ?_⟩
  · obtain ⟨v, -, hv⟩ := h1 hp; exact ⟨v, hv⟩
  · obtain ⟨v, -, hv⟩ := h2 hp; exact ⟨v, hv⟩
  · obtain ⟨hz, ⟨a, ha, -⟩, ⟨b, hb, -⟩, -⟩ := h5 hp
    exact ⟨a, b, _, ha, hb, hz⟩

theorem step_works {ρ : Type} {n : Num} {r : Row ρ} {prev : ℝ × ℝ} {s : TokSt} {t : PyStr} (h : Readable n t)
    (hd : IsXYZ t → "dXdY".toList <:+: coordOf r.cmd → ∃ d, delta n r.cmd = .ok d) : ∃ s', step n r prev s t = .ok s' := by
  have f1 : ∀ s, ∃ s', stepSeq n s t = .ok s' := by
    intro s
    unfold stepSeq
    split_ifs with hp
    · obtain ⟨v, hv⟩ := h.seq (List.isPrefixOf_iff_prefix.1 hp)
      exact ⟨_, (bind_ok_iff _ _ _).2 ⟨v, (parseVal_iff _ _ _).2 hv, rfl⟩⟩
    · exact ⟨_, rfl⟩
  have f2 : ∀ s, ∃ s', stepMove n s t = .ok s' := by
    intro s
    unfold stepMove
    split_ifs with hp
    · rw [Bool.and_eq_true, Bool.not_eq_true'] at hp
      obtain ⟨v, hv⟩ := h.move ⟨List.isPrefixOf_iff_prefix.1 hp.1, fun h' => by
        have := Fvj.infix_of_pyIn.2 h'
        rw [hp.2] at this; cases this⟩
      exact ⟨_, (bind_ok_iff _ _ _).2 ⟨v, (parseVal_iff _ _ _).2 hv, rfl⟩⟩
    · exact ⟨_, rfl⟩
  have f3 : ∀ s, ∃ s', stepSub n s t = .ok s' := by
    intro s
    unfold stepSub
    split_ifs with hp
    · obtain ⟨v, hv⟩ := h.sub (List.isPrefixOf_iff_prefix.1 hp)
      exact ⟨_, (bind_ok_iff _ _ _).2 ⟨v, (parseVal_iff _ _ _).2 hv, rfl⟩⟩
    · exact ⟨_, rfl⟩
  have f4 : ∀ s, ∃ s', stepTP n s t = .ok s' := by
    intro s
    unfold stepTP
    split_ifs with hp
    · obtain ⟨a, b, ha, hb⟩ := h.tp (List.isPrefixOf_iff_prefix.1 hp)
      exact ⟨_, (bind_ok_iff _ _ _).2 ⟨a, (num_iff _ _ _ _).2 ha, (bind_ok_iff _ _ _).2 ⟨b, (num_iff _ _ _ _).2 hb, rfl⟩⟩⟩
    · exact ⟨_, rfl⟩
  have f5 : ∀ s, ∃ s', stepXYZ n r prev s t = .ok s' := by
    intro s
    unfold stepXYZ
    by_cases hp : "req_ptlXYZ".toList.isPrefixOf t = true
    · rw [if_pos hp]
      have hp' : IsXYZ t := List.isPrefixOf_iff_prefix.1 hp
      obtain ⟨a, b, c, ha, hb, hc⟩ := h.xyz hp'
      rw [← num_iff] at ha hb hc
      have ok_bind : ∀ {α β : Type} (a : α) (f : α → Except PyErr β), (Except.ok a >>= f) = f a := fun _ _ => rfl
      rw [ha, ok_bind, hb, ok_bind, hc, ok_bind]
      by_cases hh : (pyIn "dXdY".toList (coordOf r.cmd) && decide (s.sub > 0)) = true
      · have hh' := hh
        rw [Bool.and_eq_true, Fvj.infix_of_pyIn] at hh'
        obtain ⟨d, hd⟩ := hd hp' hh'.1
        rw [if_pos hh, hd]
        exact ⟨_, rfl⟩
      · rw [if_neg hh]
        exact ⟨_, rfl⟩
    · rw [if_neg hp]; exact ⟨_, rfl⟩
  obtain ⟨s1, h1⟩ := f1 s
  obtain ⟨s2, h2⟩ := f2 s1
  obtain ⟨s3, h3⟩ := f3 s2
  obtain ⟨s4, h4⟩ := f4 s3
  obtain ⟨s5, h5⟩ := f5 s4
  refine ⟨s5, ?_⟩
  unfold step
  simp only [bind_ok_iff]
  exact ⟨s1, h1, s2, h2, s3, h3, s4, h4, h5⟩

end Pfm

open Pfm

/-- C84: the tokens of a note are its pieces between semicolons, without the blanks around them. -/
theorem C84_tokens (note : PyStr) : ∃ ps : List PyStr, ps ≠ [] ∧ (∀ p ∈ ps, ';' ∉ p) ∧ joinWith ';' ps = note ∧
    List.Forall₂ Trimmed ps (PerfRead.tokens note) := by
  obtain ⟨l, l1, l2, l3⟩ := Sel.exists_join ';' note
  refine ⟨l, l1, fun p hp => (l2 p hp).1, l3, ?_⟩
  unfold PerfRead.tokens
  rw [← l3, Sel.split_join ';' l l1 (fun p hp => (l2 p hp).1), List.forall₂_map_right_iff]
  exact List.forall₂_same.2 fun p _ => Sel.strip_trimmed p

/-- C84: each row gets the columns its note gives: the last token of a kind decides. The submove, if not in the note, is 0 for commands of
absolute positions and for the first row of an exposure, otherwise one more than that of the row before. -/
theorem C84_rows {ρ : Type} (n : Num) (rows : List (Row ρ)) (outs : List (Out ρ)) (h : identify n rows = .ok outs) :
    outs.map Out.row = rows ∧ ∀ i q, outs[i]? = some q →
      ∃ xy start, Before outs i xy ∧ Start outs i start ∧ Decoded n xy start q.row q.seq q.move q.sub q.req := by
  obtain ⟨z, -, hrows, -⟩ := identify_turns h
  exact ⟨hrows, fun i q hq => (row_spec h i q hq).1⟩

/-- C84: the move counter of a row is the number of rows of the same exposure directly before it. -/
theorem C84_counter {ρ : Type} (n : Num) (rows : List (Row ρ)) (outs : List (Out ρ)) (h : identify n rows = .ok outs) (i : ℕ) (q : Out ρ)
    (hq : outs[i]? = some q) :
    ∃ k : ℕ, q.counter = k ∧ k ≤ i ∧ Begins outs (i - k) ∧ ∀ j o, i - k ≤ j → j ≤ i → outs[j]? = some o → o.row.expid = q.row.expid := by
  induction i generalizing q with
  | zero =>
    have hb : Begins outs 0 := fun j o q e => by omega
    refine ⟨0, by simpa using (row_spec h 0 q hq).2.1 hb, le_refl _, hb, ?_⟩
    intro j o _ hj ho
    obtain rfl : j = 0 := by omega
    rw [hq] at ho; injection ho with ho; rw [ho]
  | succ i ih =>
    have hi : i < outs.length := by
      have := (List.getElem?_eq_some_iff.1 hq).1
      omega
    obtain ⟨o, ho⟩ : ∃ o, outs[i]? = some o := ⟨_, List.getElem?_eq_getElem hi⟩
    obtain ⟨-, r1, r2⟩ := row_spec h (i + 1) q hq
    by_cases hb : Begins outs (i + 1)
    · refine ⟨0, by simpa using r1 hb, by omega, hb, ?_⟩
      intro j o' h1 h2 ho'
      obtain rfl : j = i + 1 := by omega
      rw [hq] at ho'; injection ho' with ho'; rw [ho']
    · obtain ⟨k, hk, hki, hbk, hall⟩ := ih o ho
      have heq : o.row.expid = q.row.expid := by
        by_contra hne
        refine hb ?_
        intro j o' q' e ho' hq'
        obtain rfl : i = j := by omega
        rw [ho] at ho'; rw [hq] at hq'
        injection ho' with ho'; injection hq' with hq'
        subst ho' hq'
        exact hne
      refine ⟨k + 1, by rw [r2 i o rfl ho hb, hk]; push_cast; rfl, by omega, by rw [show i + 1 - (k + 1) = i - k by omega]; exact hbk, ?_⟩
      intro j o' h1 h2 ho'
      rcases Nat.lt_or_ge i j with hj | hj
      · obtain rfl : j = i + 1 := by omega
        rw [hq] at ho'; injection ho' with ho'; rw [ho']
      · rw [hall j o' (by omega) hj ho', heq]

/-- C84: the submove of a row counts from the last row before it (or itself) in the exposure that has a number in its note, an absolute command, or
begins the exposure. -/
theorem C84_submove {ρ : Type} (n : Num) (rows : List (Row ρ)) (outs : List (Out ρ)) (h : identify n rows = .ok outs) (i : ℕ) (q : Out ρ)
    (hq : outs[i]? = some q) :
    ∃ k : ℕ, k ≤ i ∧ ∃ a, outs[i - k]? = some a ∧
      (∀ j o, i - k < j → j ≤ i → outs[j]? = some o →
        o.row.expid = a.row.expid ∧ ¬ Absolute o.row.cmd ∧ ∀ t ∈ PerfRead.tokens o.row.note, ¬ IsSub t) ∧
      ((∃ pre t post v, PerfRead.tokens a.row.note = pre ++ t :: post ∧ IsSub t ∧ (∀ u ∈ post, ¬ IsSub u) ∧ Val n t v ∧ q.sub = v + k) ∨
       ((∀ t ∈ PerfRead.tokens a.row.note, ¬ IsSub t) ∧ (Absolute a.row.cmd ∨ Begins outs (i - k)) ∧ q.sub = k)) := by
  induction i generalizing q with
  | zero =>
    obtain ⟨⟨xy, start, -, ⟨q', hq', hst⟩, hd⟩, -⟩ := row_spec h 0 q hq
    obtain rfl : q' = q := by rw [hq] at hq'; injection hq' with e; exact e.symm
    refine ⟨0, le_refl _, q', hq, fun j o h1 h2 => by omega, ?_⟩
    rcases hd.sub with ⟨g1, g2⟩ | ⟨pre, t, post, e, g1, g2, g3⟩
    · right
      rcases hst with ⟨ha, hs⟩ | ⟨-, hb, hs⟩ | ⟨-, -, j, o, e, -⟩
      · exact ⟨g1, Or.inl ha, by rw [g2, hs]; rfl⟩
      · exact ⟨g1, Or.inr hb, by rw [g2, hs]; rfl⟩
      · omega
    · exact Or.inl ⟨pre, t, post, _, e, g1, g2, g3, by simp⟩
  | succ i ih =>
    obtain ⟨⟨xy, start, -, ⟨q', hq', hst⟩, hd⟩, -⟩ := row_spec h (i + 1) q hq
    obtain rfl : q' = q := by rw [hq] at hq'; injection hq' with e; exact e.symm
    rcases hd.sub with ⟨g1, g2⟩ | ⟨pre, t, post, e, g1, g2, g3⟩
    · rcases hst with ⟨ha, hs⟩ | ⟨-, hb, hs⟩ | ⟨hna, hnb, j, o, e, ho, hs⟩
      · exact ⟨0, by omega, q', hq, fun j o h1 h2 => by omega, Or.inr ⟨g1, Or.inl ha, by rw [g2, hs]; rfl⟩⟩
      · exact ⟨0, by omega, q', hq, fun j o h1 h2 => by omega, Or.inr ⟨g1, Or.inr hb, by rw [g2, hs]; rfl⟩⟩
      · obtain rfl : i = j := by omega
        have heq : o.row.expid = q'.row.expid := by
          by_contra hne
          refine hnb ?_
          intro j o' q'' e ho' hq''
          obtain rfl : i = j := by omega
          rw [ho] at ho'; rw [hq] at hq''
          injection ho' with ho'; injection hq'' with hq''
          subst ho' hq''
          exact hne
        obtain ⟨k, hk, a, ha, hall, hcase⟩ := ih o ho
        have hao : o.row.expid = a.row.expid := by
          rcases Nat.eq_zero_or_pos k with h0 | h0
          · rw [h0, Nat.sub_zero, ho] at ha; injection ha with ha; rw [ha]
          · exact (hall i o (by omega) (le_refl _) ho).1
        have hsub : i + 1 - (k + 1) = i - k := by omega
        refine ⟨k + 1, by omega, a, by rw [hsub]; exact ha, ?_, ?_⟩
        · intro j o' h1 h2 ho'
          rcases Nat.lt_or_ge i j with hj | hj
          · obtain rfl : j = i + 1 := by omega
            rw [hq] at ho'; injection ho' with ho'
            subst ho'
            exact ⟨by rw [← heq, hao], hna, g1⟩
          · exact hall j o' (by omega) hj ho'
        · rw [hsub]
          rcases hcase with ⟨pre, t, post, v, c1, c2, c3, c4, c5⟩ | ⟨c1, c2, c3⟩
          · exact Or.inl ⟨pre, t, post, v, c1, c2, c3, c4, by rw [g2, hs, c5]; push_cast; ring⟩
          · exact Or.inr ⟨c1, c2, by rw [g2, hs, c3]; push_cast; ring⟩
    · exact ⟨0, by omega, q', hq, fun j o h1 h2 => by omega, Or.inl ⟨pre, t, post, _, e, g1, g2, g3, by simp⟩⟩

/-- C84: a token `key=(a,b,...)` has the numbers `a`, `b`, ... -/
theorem C84_pieces (key : PyStr) (l : List PyStr) (hk : '=' ∉ key) (hl : 2 ≤ l.length) (h : ∀ p ∈ l, ∀ c ∈ p, c ∉ ['=', '(', ')', ',', '|']) (n : Num)
    (i : ℕ) (v : Option ℝ) : Entry n (key ++ '=' :: ('(' :: joinWith ',' l ++ [')'])) i v ↔ ∃ a, l[i]? = some a ∧ n.float a = .ok v := by
  have nm : ∀ ch, ch ∈ ['=', '(', ')', '|'] → ch ∉ joinWith ',' l := by
    intro ch hch hm
    rcases mem_joinWith hm with e | ⟨p, hp, hx⟩
    · rw [e] at hch; revert hch; decide
    · exact h p hp ch hx (by revert hch; simp; tauto)
  have e1 : lastPiece '=' (key ++ '=' :: ('(' :: joinWith ',' l ++ [')'])) = '(' :: joinWith ',' l ++ [')'] := by
    unfold lastPiece
    rw [split_first hk, split_none]
    · rfl
    · intro hm
      rcases List.mem_append.1 hm with hm | hm
      · rcases List.mem_cons.1 hm with hm | hm
        · revert hm; decide
        · exact nm '=' (by simp) hm
      · revert hm; decide
  have e3 : stripC '(' ('(' :: joinWith ',' l ++ [')']) = joinWith ',' l ++ [')'] := by
    have := stripC_eq (c := '(') (a := ['(']) (m := joinWith ',' l ++ [')']) (b := []) (by simp) (by simp) (by
      intro hm
      rcases List.mem_append.1 hm with hm | hm
      · exact nm '(' (by simp) hm
      · revert hm; decide)
    simpa using this
  have e4 : stripC ')' (joinWith ',' l ++ [')']) = joinWith ',' l := by
    have := stripC_eq (c := ')') (a := []) (m := joinWith ',' l) (b := [')']) (by simp) (by simp) (nm ')' (by simp))
    simpa using this
  unfold Entry reqPieces
  rw [e1, e3, e4, splitNote_comma hl (fun p hp => ⟨fun hc => h p hp _ hc (by simp), fun hc => h p hp _ hc (by simp)⟩)]

/-- C84: for a correction `coord=[dx,dy]` (of the petal or local coordinates, or of the observer, turned by a multiple of 36 degrees) the
position requested is at the distance of the correction from the measurement taken as the one before. -/
theorem C84_correction {ρ : Type} (n : Num) (r : Row ρ) (prev : ℝ × ℝ) (sub : ℤ) (t : PyStr) (x y z : Option ℝ) (c a b rest : PyStr)
    (hcmd : r.cmd = c ++ '=' :: ('[' :: (a ++ ',' :: b) ++ [']'] ++ rest)) (hc : '=' ∉ c) (hd : "dXdY".toList <:+: c)
    (ha : ∀ x ∈ a, x ∉ ['=', '[', ']', ',', ';']) (hb : ∀ x ∈ b, x ∉ ['=', '[', ']', ',', ';'])
    (hr : rest = [] ∨ ∃ u, rest = ';' :: u) (dx dy : ℝ) (hx : n.float a = .ok (some dx)) (hy : n.float b = .ok (some dy)) (hs : 0 < sub)
    (h : Xyz n r prev sub t x y z) :
    ∃ x' y', x = some x' ∧ y = some y' ∧ (x' - prev.1) ^ 2 + (y' - prev.2) ^ 2 = dx ^ 2 + dy ^ 2 ∧
      (c ≠ "obsdXdY".toList ∨ r.petalLoc = 3 → x' = prev.1 + dx ∧ y' = prev.2 + dy) := by
  have hco : coordOf r.cmd = c := by
    unfold coordOf
    rw [hcmd, split_first hc]; rfl
  obtain ⟨-, -, -, h4⟩ := h
  obtain ⟨d, hd1, hd2⟩ := h4 (by rw [hco]; exact ⟨hd, hs⟩)
  rw [hcmd, delta_text n c a b rest hc ha hb hr _ _ hx hy] at hd1
  injection hd1 with hd1
  subst hd1
  rw [hco] at hd2
  unfold corrected turn at hd2
  dsimp only at hd2
  simp only [Prod.mk.injEq] at hd2
  refine ⟨_, _, hd2.1.symm, hd2.2.symm, ?_, ?_⟩
  · split_ifs
    · have := Real.sin_sq_add_cos_sq (-((r.petalLoc : ℝ) - 3) * (Real.pi / 180 * 36))
      dsimp only
      linear_combination (dx ^ 2 + dy ^ 2) * this
    · dsimp only; ring
  · intro h'
    split_ifs with hobs
    · rcases h' with h' | h'
      · exact absurd hobs h'
      · rw [h']
        simp
    · exact ⟨rfl, rfl⟩

/-- C84: identification works when there is a row, all tokens can be read and all corrections have two numbers; and it works only if there
is a row and all tokens can be read. -/
theorem C84_success {ρ : Type} (n : Num) (rows : List (Row ρ)) :
    ((∃ outs, identify n rows = .ok outs) → rows ≠ [] ∧ ∀ r ∈ rows, ∀ t ∈ PerfRead.tokens r.note, Readable n t) ∧
    (rows ≠ [] → (∀ r ∈ rows, ∀ t ∈ PerfRead.tokens r.note, Readable n t) →
      (∀ r ∈ rows, "dXdY".toList <:+: coordOf r.cmd → ∃ d, delta n r.cmd = .ok d) → ∃ outs, identify n rows = .ok outs) := by
  constructor
  · rintro ⟨outs, h⟩
    unfold identify at h
    cases hz : rows.getLast? with
    | none => rw [hz] at h; cases h
    | some z =>
      rw [hz] at h
      refine ⟨by rintro rfl; simp at hz, ?_⟩
      dsimp only at h
      generalize z.xy = prev at h
      generalize (none : Option (ℤ × ℤ × ℤ)) = st at h
      clear hz
      induction rows generalizing prev st outs with
      | nil => simp
      | cons r rest ih =>
        rw [loop] at h
        obtain ⟨s, hs, h⟩ := (bind_ok_iff _ _ _).1 h
        obtain ⟨tail, ht, h⟩ := (bind_ok_iff _ _ _).1 h
        intro x hx
        rcases List.mem_cons.1 hx with rfl | hx
        · clear ih ht h hx
          generalize PerfRead.tokens x.note = ts at hs
          generalize (⟨none, none, startSub x.cmd (carry st x.expid).2, ⟨none, none, none, none, none⟩⟩ : TokSt) = s0 at hs
          induction ts generalizing s0 with
          | nil => simp
          | cons t ts ih =>
            rw [List.foldlM_cons, bind_ok_iff] at hs
            obtain ⟨m, hm, hs⟩ := hs
            intro u hu
            rcases List.mem_cons.1 hu with rfl | hu
            · exact step_readable hm
            · exact ih m hs u hu
        · exact ih _ _ _ ht x hx
  · intro hne h1 h2
    unfold identify
    cases hz : rows.getLast? with
    | none => exact absurd (List.getLast?_eq_none_iff.1 hz) hne
    | some z =>
      dsimp only
      generalize z.xy = prev
      generalize (none : Option (ℤ × ℤ × ℤ)) = st
      clear hz hne
      induction rows generalizing prev st with
      | nil => exact ⟨[], rfl⟩
      | cons r rest ih =>
        have hf : ∀ (ts : List PyStr) (s0 : TokSt), (∀ t ∈ ts, Readable n t) → ∃ s, ts.foldlM (step n r prev) s0 = .ok s := by
          intro ts
          induction ts with
          | nil => intro s0 _; exact ⟨s0, rfl⟩
          | cons t ts ih =>
            intro s0 ht
            obtain ⟨m, hm⟩ := step_works (r := r) (prev := prev) (s := s0) (ht t (by simp)) (fun _ => h2 r (by simp))
            obtain ⟨s, hs⟩ := ih m (fun u hu => ht u (by simp [hu]))
            exact ⟨s, by rw [List.foldlM_cons, bind_ok_iff]; exact ⟨m, hm, hs⟩⟩
        obtain ⟨s, hs⟩ := hf (PerfRead.tokens r.note) ⟨none, none, startSub r.cmd (carry st r.expid).2, ⟨none, none, none, none, none⟩⟩ (h1 r (by simp))
        obtain ⟨tail, ht⟩ := ih (fun x hx => h1 x (by simp [hx])) (fun x hx => h2 x (by simp [hx])) r.xy (some (r.expid, (carry st r.expid).1 + 1, s.sub))
        refine ⟨⟨r, (carry st r.expid).1 + 1, s.seq, s.move, s.sub, s.req⟩ :: tail, ?_⟩
        rw [loop, bind_ok_iff]
        exact ⟨s, hs, (bind_ok_iff _ _ _).2 ⟨tail, ht, rfl⟩⟩

/-- C84: rows of submoves are kept exactly if the table has the first submove of the same move, and with a row that row is kept. -/
theorem C84_parents {ρ : Type} (t : List (Out ρ)) (o : Out ρ) :
    (o ∈ removeOrphans t ↔ o ∈ t ∧ (0 < o.sub → ∃ q ∈ t, q.row.posid = o.row.posid ∧ q.move = o.move ∧ q.row.expid = o.row.expid ∧ q.sub = 0)) ∧
    (o ∈ removeOrphans t → 0 < o.sub → ∃ q ∈ removeOrphans t, q.row.posid = o.row.posid ∧ q.move = o.move ∧ q.row.expid = o.row.expid ∧ q.sub = 0) := by
  have key : ∀ o, o ∈ removeOrphans t ↔ o ∈ t ∧ (0 < o.sub → ∃ q ∈ t, q.row.posid = o.row.posid ∧ q.move = o.move ∧ q.row.expid = o.row.expid ∧ q.sub = 0) := by
    intro o
    unfold removeOrphans
    rw [List.mem_filter]
    simp only [Bool.not_eq_true', Bool.and_eq_false_iff, decide_eq_false_iff_not, Bool.not_eq_false', List.any_eq_true, Bool.and_eq_true, decide_eq_true_eq, and_assoc, gt_iff_lt]
    exact and_congr_right fun _ => (imp_iff_not_or).symm
  refine ⟨key o, fun h hs => ?_⟩
  obtain ⟨q, hq, e1, e2, e3, e4⟩ := ((key o).1 h).2 hs
  exact ⟨q, (key q).2 ⟨hq, fun h' => by omega⟩, e1, e2, e3, e4⟩

/-- C84: the rows that are analysed are those identified, except rows of submoves without the first submove and rows for which one of the
five requested coordinates is missing. -/
theorem C84_kept {ρ : Type} (n : Num) (sort : List (Row ρ) → List (Row ρ)) (order : List (Out ρ) → List (Out ρ)) (ho : ∀ l, (order l).Perm l)
    (rows : List (Row ρ)) (t : List (Out ρ)) (h : prepare n sort order rows = .ok t) :
    ∃ outs, identify n (sort rows) = .ok outs ∧ (∃ keep : Out ρ → Bool, t.Perm (outs.filter keep)) ∧
      ∀ o, o ∈ t ↔ o ∈ outs ∧ (0 < o.sub → ∃ q ∈ outs, q.row.posid = o.row.posid ∧ q.move = o.move ∧ q.row.expid = o.row.expid ∧ q.sub = 0) ∧
        ∃ a b c d e, o.req = ⟨some a, some b, some c, some d, some e⟩ := by
  unfold prepare at h
  obtain ⟨outs, h1, h⟩ := (bind_ok_iff _ _ _).1 h
  injection h with h
  refine ⟨outs, h1, ?_, ?_⟩
  · subst h
    have h2 := (ho (removeOrphans (order outs))).filter
      fun o => !(o.req.t.isNone || o.req.p.isNone || o.req.x.isNone || o.req.y.isNone || o.req.z.isNone)
    unfold removeInsufficient
    conv at h2 => rhs; rw [removeOrphans, List.filter_filter]
    exact ⟨_, h2.trans ((ho outs).filter _)⟩
  · intro o
    rw [← h]
    unfold removeInsufficient
    rw [List.mem_filter, (ho _).mem_iff, (C84_parents _ o).1, (ho outs).mem_iff]
    simp only [(ho outs).mem_iff]
    rw [and_assoc]
    refine and_congr_right fun _ => and_congr_right fun _ => ?_
    obtain ⟨a, b, c, d, e⟩ := o.req
    cases a <;> cases b <;> cases c <;> cases d <;> cases e <;> simp

/-- **C84** (finding) a correction in the first row takes the measurement of the last row of the table for the one before. -/
theorem C84_first_row {ρ : Type} (n : Num) (rows : List (Row ρ)) (outs : List (Out ρ)) (h : identify n rows = .ok outs) (q z : Out ρ)
    (hq : outs[0]? = some q) (hz : outs.getLast? = some z) (pre post : List PyStr) (t : PyStr) (ht : PerfRead.tokens q.row.note = pre ++ t :: post)
    (hx : IsXYZ t) (hpost : ∀ u ∈ post, ¬ IsXYZ u) (hpre : ∀ u ∈ pre, IsXYZ u ∨ ∀ v, Val n u v → 0 < v) (hsub : ∃ u ∈ pre, IsSub u)
    (hd : "dXdY".toList <:+: coordOf q.row.cmd) :
    ∃ d, delta n q.row.cmd = .ok d ∧ corrected (coordOf q.row.cmd) q.row.petalLoc z.row.xy d = (q.req.x, q.req.y) := by
  obtain ⟨⟨xy, start, hxy, -, hdec⟩, -⟩ := row_spec h 0 q hq
  have hxy' : xy = z.row.xy := by
    rcases hxy with ⟨-, z', hz', e⟩ | ⟨j, o, e, -⟩
    · rw [hz] at hz'; injection hz' with e'; rw [e, e']
    · omega
  rcases hdec.xyz with ⟨g, -⟩ | ⟨pre', t', post', k, e, hx', hp', hk, hX⟩
  · exact absurd hx (g t (by rw [ht]; simp))
  · have heq : pre' = pre ∧ t' = t := by
      have e2 : pre ++ t :: post = pre' ++ t' :: post' := by rw [← ht, e]
      rcases List.append_eq_append_iff.1 e2 with ⟨as, f1, f2⟩ | ⟨as, f1, f2⟩
      · cases as with
        | nil =>
          simp only [List.nil_append, List.cons.injEq] at f2
          exact ⟨by simpa using f1, f2.1.symm⟩
        | cons x as =>
          simp only [List.cons_append, List.cons.injEq] at f2
          exact absurd hx' (hpost t' (by rw [f2.2]; simp))
      · cases as with
        | nil =>
          simp only [List.nil_append, List.cons.injEq] at f2
          exact ⟨by simpa using f1.symm, f2.1⟩
        | cons x as =>
          simp only [List.cons_append, List.cons.injEq] at f2
          exact absurd hx (hp' t (by rw [f2.2]; simp))
    obtain ⟨rfl, rfl⟩ := heq
    have hk0 : 0 < k := by
      rcases hk with ⟨g, -⟩ | ⟨p1, u, p2, e3, hu, -, hv⟩
      · obtain ⟨u, hu, hu'⟩ := hsub
        exact absurd hu' (g u hu)
      · rcases hpre u (by rw [e3]; simp) with h' | h'
        · exact absurd hu (not_sub_of_xyz h')
        · exact h' k hv
    obtain ⟨d, d1, d2⟩ := hX.2.2.2 ⟨hd, hk0⟩
    exact ⟨d, d1, by rw [← hxy']; exact d2⟩

/-- A reading of numbers for the examples. -/
noncomputable def Pfm.num0 : Num := ⟨fun _ => .ok 1, fun _ => .ok (some 0)⟩

/-- A first move without request. -/
noncomputable def Pfm.bare : Row Unit := ⟨"M1".toList, 7, "QS=[1,2]".toList, [], (0, 0), 3, 1, ()⟩

/-- Its correction, with request. -/
noncomputable def Pfm.fix : Row Unit :=
  ⟨"M1".toList, 7, "QS=[1,2]".toList, "submove 1;req_posintTP=(1,2);req_ptlXYZ=(1,2,3)".toList, (0, 0), 3, 1, ()⟩

theorem Pfm.tokens_fix : PerfRead.tokens Pfm.fix.note = ["submove 1".toList, "req_posintTP=(1,2)".toList, "req_ptlXYZ=(1,2,3)".toList] := by decide

theorem Pfm.identify_fix : identify num0 [bare, fix] =
    .ok [⟨bare, 0, none, none, 0, ⟨none, none, none, none, none⟩⟩, ⟨fix, 1, none, none, 1, ⟨some 0, some 0, some 0, some 0, some 0⟩⟩] := by
  rfl

/-- **C84** (finding) rows of submoves can remain without the first submove of their move: it is removed after the search for orphans when its
request is incomplete. -/
theorem C84_orphan_left : ∃ (n : Num) (rows : List (Row Unit)) (t : List (Out Unit)),
    prepare n id id rows = .ok t ∧ ∃ o ∈ t, 0 < o.sub ∧ ∀ q ∈ t, q.sub ≠ 0 := by
  refine ⟨num0, [bare, fix], [⟨fix, 1, none, none, 1, ⟨some 0, some 0, some 0, some 0, some 0⟩⟩], ?_, ?_⟩
  · unfold prepare
    rw [id, identify_fix]
    rfl
  · exact ⟨_, List.mem_singleton.2 rfl, by decide, by simp⟩

/-- **C84** (finding) a token that is only the word `move` stops the program. -/
theorem C84_no_number {ρ : Type} (n : Num) (r : Row ρ) (rest : List (Row ρ)) (ts : List PyStr) (h : PerfRead.tokens r.note = "move".toList :: ts) :
    identify n (r :: rest) = .error .indexError := by
  have e : ∀ prev s, step n r prev s "move".toList = .error .indexError := fun _ _ => rfl
  unfold identify
  rw [List.getLast?_cons]
  dsimp only
  rw [loop, h, List.foldlM_cons, e]
  rfl

/-- A correction with a note. -/
noncomputable def Pfm.corr (note : String) : Row Unit := ⟨"M1".toList, 7, "poslocdXdY=[1,2]".toList, note.toList, (5, 5), 3, 1, ()⟩

theorem Pfm.identify_corr : identify num0 [corr "submove 1;req_ptlXYZ=(1,2,3)"] =
      .ok [⟨corr "submove 1;req_ptlXYZ=(1,2,3)", 0, none, none, 1, ⟨none, none, some (5 + (0 : ℝ)), some (5 + (0 : ℝ)), some 0⟩⟩] ∧
    identify num0 [corr "req_ptlXYZ=(1,2,3);submove 1"] =
      .ok [⟨corr "req_ptlXYZ=(1,2,3);submove 1", 0, none, none, 1, ⟨none, none, some 0, some 0, some 0⟩⟩] := by
  constructor
  · have e : corrected (coordOf "poslocdXdY=[1,2]".toList) 3 (5, 5) (some 0, some 0) = (some (5 + (0 : ℝ)), some (5 + (0 : ℝ))) := by
      have hc : coordOf "poslocdXdY=[1,2]".toList ≠ "obsdXdY".toList := by decide
      unfold corrected turn
      dsimp only
      rw [if_neg hc]
    have e2 : identify num0 [corr "submove 1;req_ptlXYZ=(1,2,3)"] =
        .ok [⟨corr "submove 1;req_ptlXYZ=(1,2,3)", 0, none, none, 1, ⟨none, none, (corrected (coordOf "poslocdXdY=[1,2]".toList) 3 (5, 5) (some 0, some 0)).1,
          (corrected (coordOf "poslocdXdY=[1,2]".toList) 3 (5, 5) (some 0, some 0)).2, some 0⟩⟩] := rfl
    rw [e2, e]
  · rfl

/-- **C84** (finding) the order of the tokens of a note matters: a request before the number of the submove is taken as it stands, after it it is
replaced for corrections. -/
theorem C84_token_order : ∃ (n : Num) (r s : Row Unit) (a b : PyStr) (q p : Out Unit), PerfRead.tokens r.note = [a, b] ∧ PerfRead.tokens s.note = [b, a] ∧
    r.cmd = s.cmd ∧ r.xy = s.xy ∧ identify n [r] = .ok [q] ∧ identify n [s] = .ok [p] ∧ q.sub = p.sub ∧ q.req.x ≠ p.req.x := by
  refine ⟨num0, corr "submove 1;req_ptlXYZ=(1,2,3)", corr "req_ptlXYZ=(1,2,3);submove 1", "submove 1".toList, "req_ptlXYZ=(1,2,3)".toList, _, _, ?_, ?_, rfl, rfl,
    identify_corr.1, identify_corr.2, rfl, ?_⟩
  · show PerfRead.tokens "submove 1;req_ptlXYZ=(1,2,3)".toList = _
    decide
  · show PerfRead.tokens "req_ptlXYZ=(1,2,3);submove 1".toList = _
    decide
  · simp

/-- The hypotheses of `C84_first_row` can be met: the correction above. -/
example : ∃ (rows : List (Row Unit)) (q : Out Unit) (pre post : List PyStr) (t : PyStr), identify num0 rows = .ok [q] ∧
    PerfRead.tokens q.row.note = pre ++ t :: post ∧ IsXYZ t ∧ (∀ u ∈ post, ¬ IsXYZ u) ∧ (∀ u ∈ pre, IsXYZ u ∨ ∀ v, Val num0 u v → 0 < v) ∧
    (∃ u ∈ pre, IsSub u) ∧ "dXdY".toList <:+: coordOf q.row.cmd := by
  refine ⟨_, _, ["submove 1".toList], [], "req_ptlXYZ=(1,2,3)".toList, identify_corr.1, ?_, ?_, by simp, ?_, ?_, ?_⟩
  · show PerfRead.tokens "submove 1;req_ptlXYZ=(1,2,3)".toList = _
    decide
  · unfold IsXYZ
    decide
  · rintro u hu
    right
    rintro v ⟨a, -, e⟩
    injection e with e
    rw [← e]
    decide
  · exact ⟨_, List.mem_singleton.2 rfl, by unfold IsSub; decide⟩
  · show "dXdY".toList <:+: coordOf "poslocdXdY=[1,2]".toList
    decide

/-- The hypotheses of `C84_pieces` can be met. -/
example (n : Num) (v : Option ℝ) : Entry n "req_posintTP=(1.5,-20)".toList 1 v ↔ n.float "-20".toList = .ok v := by
  have h := C84_pieces "req_posintTP".toList ["1.5".toList, "-20".toList] (by decide) (by decide) (by decide) n 1 v
  refine Iff.trans h ⟨?_, fun e => ⟨_, rfl, e⟩⟩
  rintro ⟨a, e, ha⟩
  injection e with e
  rw [e]
  exact ha

/-- A note for `C84_no_number`. -/
example (n : Num) : identify n [(⟨"M1".toList, 7, "QS=[1,2]".toList, "move ; submove 1".toList, (0, 0), 3, 1, ()⟩ : Row Unit)] = .error .indexError :=
  C84_no_number n _ [] ["submove 1".toList] (by decide)

end Verif.Props
