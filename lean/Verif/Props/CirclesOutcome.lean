import Verif.Props.Circles
import Verif.Lemmas.Pos2ptl

/-!
# C38: every outcome of the robust circle fit
-/

namespace Verif.Props.CirclesOutcome
open Verif.Py Verif.Model.Circles

/-- The points marked. -/
def kept (pts : List (ℝ × ℝ)) (m : List Bool) : List (ℝ × ℝ) := (pts.zip m).filterMap fun q => if q.2 then some q.1 else none

theorem select_eq (pts : List (ℝ × ℝ)) (m : List Bool) : select pts m = kept pts m := by
  unfold select kept
  induction pts.zip m with
  | nil => rfl
  | cons q l ih => rcases q with ⟨p, _ | _⟩ <;> simp [ih]

theorem count_set (m : List Bool) (i : ℕ) : (m.set i false).count true ≤ m.count true ∧
    m.count true ≤ (m.set i false).count true + 1 := by
  induction m generalizing i with
  | nil => simp
  | cons b m ih =>
    cases i with
    | zero => cases b <;> simp
    | succ i => cases b <;> simp [List.count_cons] <;> have := ih i <;> omega

theorem filter_id_length (m : List Bool) : (m.filter id).length = m.count true := by
  induction m with
  | nil => rfl
  | cons b m ih => cases b <;> simp [ih]

/-- What the loop leaves, from mask `ok` with `k` passes left. -/
theorem loop_spec (pts : List (ℝ × ℝ)) (nsig minerr : ℝ) (k : ℕ) (last : (ℝ × ℝ) × ℝ) (ok : List Bool)
    (h3 : ok = List.replicate pts.length true ∨ 3 ≤ ok.count true) (hl : ok.length = pts.length) (o : Loop)
    (h : robustLoop pts nsig minerr k last ok = .ok o) :
    (∃ m, o = .gameOver m ∧ m.length = pts.length ∧ m.count true < 3 ∧ ok.count true ≤ m.count true + k ∧ false ∈ m) ∨
    (∃ f m, o = .done f m ∧ m.length = pts.length ∧ ok.count true ≤ m.count true + k ∧
      (m = List.replicate pts.length true ∨ 3 ≤ m.count true) ∧
      ((k = 0 ∧ f = last) ∨ ∃ m', fastFit true (kept pts m') = .ok f)) := by
  induction k generalizing last ok with
  | zero =>
    simp only [robustLoop, Except.ok.injEq] at h
    exact Or.inr ⟨last, ok, h.symm, hl, by omega, h3, Or.inl ⟨rfl, rfl⟩⟩
  | succ k ih =>
    unfold robustLoop at h
    obtain ⟨f, hf, h⟩ := Lemmas.bind_ok h
    dsimp only at h
    rw [select_eq] at hf
    have hw : 0 < pts.length → argmaxReal ((radii pts f.1).map fun v => |v - f.2|) < pts.length := by
      intro hp
      have := (Lemmas.argmaxReal_spec ((radii pts f.1).map fun v => |v - f.2|) (by
        intro e
        have := congrArg List.length e
        simp [radii] at this
        rw [this] at hp; simp at hp)).1
      simpa [radii] using this
    generalize argmaxReal ((radii pts f.1).map fun v => |v - f.2|) = w at h hw
    split_ifs at h with h1 h2
    · injection h with h
      exact Or.inr ⟨f, ok, h.symm, hl, by omega, h3, Or.inr ⟨ok, hf⟩⟩
    · injection h with h
      rw [filter_id_length] at h2
      have hc := count_set ok w
      refine Or.inl ⟨_, h.symm, by simpa using hl, h2, by omega, ?_⟩
      have hp : 0 < pts.length := by
        rcases Nat.eq_zero_or_pos pts.length with h0 | h0
        · have : pts = [] := List.length_eq_zero_iff.1 h0
          subst this
          simp [kept, fastFit] at hf
        · exact h0
      have := hw hp
      exact List.mem_iff_getElem.2 ⟨w, by simp; omega, by simp⟩
    · rw [filter_id_length] at h2
      have hc := count_set ok w
      rcases ih f (ok.set w false) (Or.inr (by omega)) (by simpa using hl) h with ⟨m, a, b, c, d, e⟩ | ⟨g, m, a, b, c, d, e⟩
      · exact Or.inl ⟨m, a, b, c, by omega, e⟩
      · refine Or.inr ⟨g, m, a, b, by omega, d, Or.inr ?_⟩
        rcases e with ⟨-, rfl⟩ | e
        · exact ⟨ok, hf⟩
        · exact e

/-- **C38** Whatever the points: `robust_fit_circle` excludes at most twelve. If fewer than three are left after an exclusion it
returns centre and radius zero; otherwise the `fit_circle` of the points left or, when that is rejected, a fast fit. -/
theorem C38_robust_outcome (opt : List (ℝ × ℝ) → ℝ × ℝ → ℝ × ℝ) (pts : List (ℝ × ℝ)) (nsig minerr : ℝ) (g : (ℝ × ℝ) × ℝ)
    (m : List Bool) (h : robustFitCircle opt pts nsig minerr = .ok (g, m)) :
    m.length = pts.length ∧ m.count false ≤ 12 ∧
    (false ∈ m → m.count true < 3 → g = ((0, 0), 0)) ∧
    (false ∉ m ∨ 3 ≤ m.count true → fitCircle opt (kept pts m) = .ok g ∨
      (fitCircle opt (kept pts m) = .error .valueError ∧ ∃ m', fastFit true (kept pts m') = .ok g)) := by
  unfold robustFitCircle at h
  obtain ⟨o, ho, h⟩ := Lemmas.bind_ok h
  have hc : (List.replicate pts.length true).count true = pts.length := by simp
  have hf : ∀ m : List Bool, m.length = m.count true + m.count false := by
    intro m
    induction m with
    | nil => rfl
    | cons b m ih => cases b <;> simp [ih] <;> omega
  have hr : ∀ k, false ∉ List.replicate k true := by intro k; simp
  rcases loop_spec pts nsig minerr 12 _ _ (Or.inl rfl) (by simp) o ho with ⟨m', rfl, a, b, c, d⟩ | ⟨f, m', rfl, a, b, c, d⟩
  · simp only [Except.ok.injEq, Prod.mk.injEq] at h
    obtain ⟨rfl, rfl⟩ := h
    have := hf m'
    refine ⟨a, by omega, fun _ _ => rfl, ?_⟩
    rintro (h | h)
    · exact absurd d h
    · omega
  · have key : m = m' ∧ (fitCircle opt (kept pts m') = .ok g ∨
        (fitCircle opt (kept pts m') = .error .valueError ∧ ∃ m', fastFit true (kept pts m') = .ok g)) := by
      simp only [select_eq] at h
      cases hq : fitCircle opt (kept pts m') with
      | ok v =>
        rw [hq] at h
        simp only [Except.ok.injEq, Prod.mk.injEq] at h
        exact ⟨h.2.symm, Or.inl (by rw [h.1])⟩
      | error e =>
        rw [hq] at h
        cases e <;> simp only [Except.ok.injEq, Prod.mk.injEq, reduceCtorEq] at h
        refine ⟨h.2.symm, Or.inr ⟨rfl, ?_⟩⟩
        rcases d with ⟨d, -⟩ | d
        · cases d
        · rw [← h.1]; exact d
    obtain ⟨rfl, key⟩ := key
    have := hf m
    refine ⟨a, by omega, ?_, fun _ => key⟩
    intro h1 h2
    rcases c with rfl | c
    · exact absurd h1 (hr _)
    · omega

/-- Three points and zero tolerances: one is excluded and the fit gives up. -/
example (opt : List (ℝ × ℝ) → ℝ × ℝ → ℝ × ℝ) (a b c : ℝ × ℝ) :
    ∃ m, robustFitCircle opt [a, b, c] 0 0 = .ok (((0, 0), 0), m) ∧ false ∈ m ∧ m.count true < 3 := by
  obtain ⟨f, hf⟩ : ∃ f, fastFit true (select [a, b, c] [true, true, true]) = .ok f := by
    simp [select, fastFit]
  have h1 := (Lemmas.argmaxReal_spec ((radii [a, b, c] f.1).map fun v => |v - f.2|) (by simp [radii])).1
  have h2 : ∀ k, 0 ≤ ((radii [a, b, c] f.1).map fun v => |v - f.2|).getD k 0 := by
    intro k
    rw [List.getD_eq_getElem?_getD]
    rcases hk : ((radii [a, b, c] f.1).map fun v => |v - f.2|)[k]? with _ | v
    · simp
    · obtain ⟨u, -, rfl⟩ := List.mem_map.1 (List.mem_of_getElem? hk)
      exact abs_nonneg _
  set w := argmaxReal ((radii [a, b, c] f.1).map fun v => |v - f.2|) with hw
  have h1' : w < 3 := by simpa [radii] using h1
  have h3 : ([true, true, true].set w false).count true = 2 ∧ false ∈ [true, true, true].set w false := by
    interval_cases w <;> decide
  refine ⟨[true, true, true].set w false, ?_, h3.2, by omega⟩
  have hl : robustLoop [a, b, c] 0 0 12 ((0, 0), 0) [true, true, true] = .ok (.gameOver ([true, true, true].set w false)) := by
    unfold robustLoop
    rw [hf]
    simp only [bind, Except.bind, zero_mul]
    rw [← hw, if_neg (by have := h2 w; push Not; exact ⟨this, this⟩), filter_id_length, if_pos (by omega)]
  unfold robustFitCircle
  show (robustLoop [a, b, c] 0 0 12 ((0, 0), 0) [true, true, true] >>= _) = _
  rw [hl]
  rfl

end Verif.Props.CirclesOutcome
