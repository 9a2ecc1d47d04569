import Verif.Model.GetPosmoves
import Mathlib.Data.List.Basic
import Mathlib.Data.List.Forall2
import Mathlib.Order.Basic

namespace Verif.Props
open Verif.Py Verif.Model.GetPosmoves

variable {φ γ κ : Type} [DecidableEq κ]

namespace Gpm

theorem mapM_iff {α β : Type} (f : α → Except PyErr β) (l : List α) (t : List β) :
    l.mapM f = .ok t ↔ List.Forall₂ (fun a b => f a = .ok b) l t := by
  induction l generalizing t with
  | nil =>
    constructor
    · intro h
      rw [List.mapM_nil] at h
      injection h with h
      subst h; exact .nil
    · intro h; cases h; rfl
  | cons a l ih =>
    rw [List.mapM_cons]
    constructor
    · intro h
      cases ha : f a with
      | error e => rw [ha] at h; cases h
      | ok b =>
        rw [ha] at h
        cases hl : l.mapM f with
        | error e => rw [hl] at h; cases h
        | ok t' =>
          rw [hl] at h
          injection h with h
          subst h
          exact .cons ha ((ih t').1 hl)
    · intro h
      cases h with
      | cons h1 h2 =>
        rw [h1, (ih _).2 h2]; rfl

theorem mapM_error {α β : Type} (f : α → Except PyErr β) (e : PyErr) (hf : ∀ a e', f a = .error e' → e' = e) (l : List α) :
    l.mapM f = .error e ↔ ∃ a ∈ l, f a = .error e := by
  induction l with
  | nil =>
    rw [List.mapM_nil]
    constructor
    · intro h; cases h
    · rintro ⟨a, ha, -⟩; cases ha
  | cons a l ih =>
    rw [List.mapM_cons]
    cases ha : f a with
    | error e' =>
      have := hf a e' ha
      subst this
      constructor
      · intro _; exact ⟨a, by simp, ha⟩
      · intro _; rfl
    | ok b =>
      constructor
      · intro h
        have h' : l.mapM f = .error e := by
          cases hl : l.mapM f with
          | error e' => rw [hl] at h; injection h with h; rw [h]
          | ok t => rw [hl] at h; cases h
        obtain ⟨x, hx, h2⟩ := ih.1 h'
        exact ⟨x, by simp [hx], h2⟩
      · rintro ⟨x, hx, h2⟩
        rcases List.mem_cons.1 hx with rfl | hx
        · rw [ha] at h2; cases h2
        · rw [ih.2 ⟨x, hx, h2⟩]; rfl

theorem calibFor_error (cal : List (Calib γ)) (t : ℚ) (e : PyErr) (h : calibFor cal t = .error e) : e = .indexError := by
  unfold calibFor at h
  split at h
  · cases h
  · injection h with h; exact h.symm

theorem joinRow_error (wc : Bool) (rehome : List ℤ) (cal : List (Calib γ)) (m : Move φ) (e : PyErr)
    (h : joinRow wc rehome cal m = .error e) : e = .indexError := by
  unfold joinRow at h
  dsimp only at h
  cases hc : calibFor cal m.date with
  | ok g => rw [hc] at h; split_ifs at h
  | error e' =>
    rw [hc] at h
    cases wc with
    | false => cases h
    | true =>
      rw [if_pos rfl] at h
      injection h with h
      subst h
      exact calibFor_error _ _ _ hc

end Gpm
open Gpm

/-- `g` is the calibration in force at time `t`: the last entry of the (time ordered) list recorded
at or before `t`. -/
def InForceAt (cal : List (Calib γ)) (t : ℚ) (g : γ) : Prop :=
  ∃ a c b, cal = a ++ c :: b ∧ c.date ≤ t ∧ (∀ x ∈ b, t < x.date) ∧ c.data = g

/-- C48: with calibration and without filters every move is output once, in order, with the
calibration in force at its time and the flag telling whether its exposure is in the rehome list. -/
theorem C48_join (sort : List (Out φ γ) → List (Out φ γ)) (key : Out φ γ → κ) (rehome : List ℤ) (cal : List (Calib γ))
    (moves : List (Move φ)) (t : List (Out φ γ)) :
    outTable true false true rehome sort key cal moves = .ok t ↔
      List.Forall₂ (fun m o => o.move = m ∧ (∃ g, o.calib = some g ∧ InForceAt cal m.date g) ∧
        (o.recent = if m.expid ∈ rehome then 1 else 0)) moves t := by
  have hrow : ∀ (m : Move φ) (o : Out φ γ), joinRow true rehome cal m = .ok o ↔ (o.move = m ∧ (∃ g, o.calib = some g ∧ InForceAt cal m.date g) ∧
        (o.recent = if m.expid ∈ rehome then 1 else 0)) := by
    intro m o
    have hcal : ∀ g, calibFor cal m.date = .ok g ↔ InForceAt cal m.date g := by
      intro g
      unfold calibFor InForceAt
      constructor
      · intro h
        cases hl : (cal.filter fun c => decide (c.date ≤ m.date)).getLast? with
        | none => rw [hl] at h; cases h
        | some c =>
          rw [hl] at h
          injection h with h
          rw [List.getLast?_eq_head?_reverse, ← List.filter_reverse, List.head?_filter, List.find?_eq_some_iff_append] at hl
          obtain ⟨h1, as, bs, h2, h3⟩ := hl
          refine ⟨bs.reverse, c, as.reverse, ?_, by simpa using h1, ?_, h⟩
          · have := congrArg List.reverse h2
            simpa using this
          · intro x hx
            simpa using h3 x (by simpa using hx)
      · rintro ⟨a, c, b, h1, h2, h3, h4⟩
        have : (cal.filter fun c => decide (c.date ≤ m.date)).getLast? = some c := by
          rw [h1, List.filter_append, List.filter_cons, if_pos (by simpa using h2)]
          have : b.filter (fun c => decide (c.date ≤ m.date)) = [] := by
            rw [List.filter_eq_nil_iff]
            intro x hx
            simpa using h3 x hx
          rw [this]
          simp
        rw [this]
        simp only [h4]
    unfold joinRow
    dsimp only
    rw [if_pos rfl]
    constructor
    · intro h
      cases hc : calibFor cal m.date with
      | error e => rw [hc] at h; cases h
      | ok g =>
        rw [hc] at h
        injection h with h
        subst h
        exact ⟨rfl, ⟨g, rfl, (hcal g).1 hc⟩, rfl⟩
    · rintro ⟨h1, ⟨g, h2, h3⟩, h4⟩
      rw [(hcal g).2 h3]
      obtain ⟨om, oc, orr⟩ := o
      simp only at h1 h2 h4
      rw [h1, h2, h4]
  have : outTable true false true rehome sort key cal moves = moves.mapM (joinRow true rehome cal) := by
    unfold outTable
    cases moves.mapM (joinRow true rehome cal) <;> rfl
  rw [this, mapM_iff]
  constructor
  · intro h; exact h.imp fun a b hab => (hrow a b).1 hab
  · intro h; exact h.imp fun a b hab => (hrow a b).2 hab

/-- C48: when the calibrations are ordered by time the one in force is the latest of those recorded
not after the move. -/
theorem C48_latest (cal : List (Calib γ)) (hs : cal.Pairwise fun c d => c.date ≤ d.date) (t : ℚ) (g : γ)
    (h : InForceAt cal t g) : ∃ c ∈ cal, c.data = g ∧ c.date ≤ t ∧ ∀ d ∈ cal, d.date ≤ t → d.date ≤ c.date := by
  obtain ⟨a, c, b, rfl, h1, h2, h3⟩ := h
  refine ⟨c, by simp, h3, h1, ?_⟩
  intro d hd hdt
  rw [List.pairwise_append] at hs
  rcases List.mem_append.1 hd with hd | hd
  · exact hs.2.2 d hd c (by simp)
  · rcases List.mem_cons.1 hd with rfl | hd
    · exact le_refl _
    · exact absurd (h2 d hd) (not_lt.2 hdt)

/-- C48: a move older than all calibrations makes the program fail with IndexError (whatever the
other options), and nothing else makes the join fail. -/
theorem C48_too_early (sort : List (Out φ γ) → List (Out φ γ)) (key : Out φ γ → κ) (rehome : List ℤ) (cal : List (Calib γ))
    (moves : List (Move φ)) :
    ((∃ m ∈ moves, ∀ c ∈ cal, m.date < c.date) → ∀ enabled tp,
      outTable true enabled tp rehome sort key cal moves = .error .indexError) ∧
    ((∀ m ∈ moves, ∃ c ∈ cal, c.date ≤ m.date) → ∃ t, outTable true false true rehome sort key cal moves = .ok t) := by
  have hrow : ∀ m : Move φ, joinRow true rehome cal m = .error .indexError ↔ ∀ c ∈ cal, m.date < c.date := by
    intro m
    unfold joinRow calibFor
    dsimp only
    rw [if_pos rfl]
    cases hl : (cal.filter fun c => decide (c.date ≤ m.date)).getLast? with
    | none =>
      rw [List.getLast?_eq_none_iff, List.filter_eq_nil_iff] at hl
      simp only [true_iff]
      intro c hc
      simpa using hl c hc
    | some c =>
      constructor
      · intro h; cases h
      · intro h
        have := List.mem_of_getLast? hl
        rw [List.mem_filter] at this
        exact absurd (h c this.1) (not_lt.2 (by simpa using this.2))
  constructor
  · rintro ⟨m, hm, hc⟩ enabled tp
    have := (mapM_error (joinRow true rehome cal) .indexError (fun a e => joinRow_error _ _ _ a e) moves).2 ⟨m, hm, (hrow m).2 hc⟩
    unfold outTable
    rw [this]; rfl
  · intro h
    cases hm : moves.mapM (joinRow true rehome cal) with
    | ok t =>
      refine ⟨t, ?_⟩
      unfold outTable
      rw [hm]; rfl
    | error e =>
      exfalso
      have he : e = .indexError := by
        by_contra hne
        clear h
        induction moves with
        | nil => rw [List.mapM_nil] at hm; cases hm
        | cons a l ih =>
          rw [List.mapM_cons] at hm
          cases ha : joinRow true rehome cal a with
          | error e' =>
            rw [ha] at hm
            injection hm with hm
            subst hm
            exact hne (joinRow_error _ _ _ _ _ ha)
          | ok b =>
            rw [ha] at hm
            cases hl : l.mapM (joinRow true rehome cal) with
            | error e' => rw [hl] at hm; injection hm with hm; subst hm; exact ih hl
            | ok t => rw [hl] at hm; cases hm
      subst he
      obtain ⟨m, hmm, hc⟩ := (mapM_error _ .indexError (fun a e => joinRow_error _ _ _ a e) moves).1 hm
      obtain ⟨c, hcc, hle⟩ := h m hmm
      exact absurd ((hrow m).1 hc c hcc) (not_lt.2 hle)

/-- C48: without `--tp-updates` (and without `--enabled-history`) exactly the rows with a measured
position are kept. -/
theorem C48_measured (wc : Bool) (sort : List (Out φ γ) → List (Out φ γ)) (key : Out φ γ → κ) (rehome : List ℤ)
    (cal : List (Calib γ)) (moves : List (Move φ)) (t : List (Out φ γ))
    (h : outTable wc false true rehome sort key cal moves = .ok t) :
    outTable wc false false rehome sort key cal moves = .ok (t.filter fun r => r.move.xfp.isSome) := by
  unfold outTable at h ⊢
  cases hm : moves.mapM (joinRow wc rehome cal) with
  | error e => rw [hm] at h; cases h
  | ok t' =>
    rw [hm] at h
    injection h with h
    subst h
    rfl

namespace Gpm

theorem changes_get {α : Type} (key : α → κ) (l : List α) :
    changes key l = (l.zipIdx.filter fun p => decide (p.2 = 0 ∨ (l[p.2 - 1]?).map key ≠ some (key p.1))).map Prod.fst := by
  cases l with
  | nil => rfl
  | cons a l =>
    rw [changes, List.zipIdx_cons, List.filter_cons, if_pos (by simp)]
    simp only [List.map_cons, List.cons.injEq, true_and]
    -- compare position by position
    have key2 : ∀ (l : List α) (a : α) (full : List α) (n : ℕ), full.drop n = a :: l →
        ((l.zip (a :: l)).filter fun p => decide (key p.1 ≠ key p.2)).map Prod.fst =
          ((l.zipIdx (n + 1)).filter fun p => decide (p.2 = 0 ∨ (full[p.2 - 1]?).map key ≠ some (key p.1))).map Prod.fst := by
      intro l
      induction l with
      | nil => intros; rfl
      | cons b l ih =>
        intro a full n hn
        have hget : full[n]? = some a := by
          have := congrArg List.head? hn
          simpa using this
        have hn' : full.drop (n + 1) = b :: l := by
          have := congrArg List.tail hn
          simpa using this
        have := ih b full (n + 1) hn'
        rw [List.zip_cons_cons, List.zipIdx_cons, List.filter_cons, List.filter_cons]
        have hiff : (n + 1 = 0 ∨ (full[n + 1 - 1]?).map key ≠ some (key b)) ↔ key b ≠ key a := by
          rw [Nat.add_sub_cancel, hget]
          simp [eq_comm]
        by_cases hb : key b ≠ key a
        · rw [if_pos (by simpa using hb), if_pos (by simpa using hiff.2 hb)]
          simp only [List.map_cons, List.cons.injEq, true_and]
          exact this
        · rw [if_neg (by simpa using hb), if_neg]
          · exact this
          · intro hc
            exact hb (hiff.1 (of_decide_eq_true hc))
    exact key2 l a (a :: l) 0 rfl

end Gpm

/-- What `otable.sort('DATE')` guarantees. -/
def SortsByDate (sort : List (Out φ γ) → List (Out φ γ)) : Prop :=
  ∀ t, (sort t).Perm t ∧ (sort t).Pairwise fun a b => a.move.date ≤ b.move.date

/-- C48: with `--enabled-history` and `--tp-updates` the rows in order of time are thinned to the
first one and those where an enabling flag differs from the row before; so before (or at) every
row in time there is a kept row, and from the last such kept row on nothing changed. -/
theorem C48_history (wc : Bool) (sort : List (Out φ γ) → List (Out φ γ)) (hsort : SortsByDate sort) (key : Out φ γ → κ)
    (rehome : List ℤ) (cal : List (Calib γ)) (moves : List (Move φ)) (hne : moves ≠ []) (t : List (Out φ γ))
    (h : outTable wc false true rehome sort key cal moves = .ok t) :
    ∃ s : List (Out φ γ), s.Perm t ∧ (s.Pairwise fun a b => a.move.date ≤ b.move.date) ∧
      outTable wc true true rehome sort key cal moves =
        .ok ((s.zipIdx.filter fun p => decide (p.2 = 0 ∨ (s[p.2 - 1]?).map key ≠ some (key p.1))).map Prod.fst) ∧
      ∀ k r, s[k]? = some r → ∃ j ≤ k, ∃ q, s[j]? = some q ∧ (j = 0 ∨ ∃ q', s[j - 1]? = some q' ∧ key q ≠ key q') ∧
        ∀ i, j ≤ i → i ≤ k → ∀ x, s[i]? = some x → key x = key r := by
  have hm : moves.mapM (joinRow wc rehome cal) = .ok t := by
    unfold outTable at h
    cases hm : moves.mapM (joinRow wc rehome cal) with
    | error e => rw [hm] at h; cases h
    | ok t' => rw [hm] at h; injection h with h; rw [h]
  have hlen : t ≠ [] := by
    have := ((mapM_iff _ _ _).1 hm).length_eq
    intro ht
    rw [ht] at this
    exact hne (List.length_eq_zero_iff.1 this)
  refine ⟨sort t, (hsort t).1, (hsort t).2, ?_, ?_⟩
  · unfold outTable
    rw [hm]
    rw [← changes_get]
    change (if t = [] then _ else _ : Except PyErr _).bind _ = _
    rw [if_neg hlen]
    rfl
  · generalize sort t = s
    intro k
    induction k with
    | zero =>
      intro r hr
      refine ⟨0, le_refl _, r, hr, Or.inl rfl, ?_⟩
      intro i _ hi x hx
      have : i = 0 := by omega
      subst this
      rw [hr] at hx
      injection hx with hx
      rw [hx]
    | succ k ih =>
      intro r hr
      obtain ⟨q, hq⟩ : ∃ q, s[k]? = some q := by
        have : k + 1 < s.length := (List.getElem?_eq_some_iff.1 hr).1
        exact ⟨s[k], List.getElem?_eq_getElem (by omega)⟩
      by_cases hc : key r = key q
      · obtain ⟨j, hj, q', h1, h2, h3⟩ := ih q hq
        refine ⟨j, by omega, q', h1, h2, ?_⟩
        intro i hi hik x hx
        by_cases hik' : i ≤ k
        · rw [hc]; exact h3 i hi hik' x hx
        · have : i = k + 1 := by omega
          subst this
          rw [hr] at hx
          injection hx with hx
          rw [hx]
      · refine ⟨k + 1, le_refl _, r, hr, Or.inr ⟨q, by simpa using hq, hc⟩, ?_⟩
        intro i hi hik x hx
        have : i = k + 1 := by omega
        subst this
        rw [hr] at hx
        injection hx with hx
        rw [hx]

/-- C48 (finding): `--enabled-history` without `--tp-updates` always fails: the X_FP column needed
for the last filter was not requested from the data base. -/
theorem C48_history_fails (wc : Bool) (sort : List (Out φ γ) → List (Out φ γ)) (key : Out φ γ → κ) (rehome : List ℤ)
    (cal : List (Calib γ)) (moves : List (Move φ)) (t : List (Out φ γ)) :
    outTable wc true false rehome sort key cal moves ≠ .ok t := by
  unfold outTable
  cases moves.mapM (joinRow wc rehome cal) with
  | error e => intro h; cases h
  | ok t' =>
    change Except.bind (enabledHistory sort key t') _ ≠ _
    cases enabledHistory sort key t' with
    | error e => intro h; cases h
    | ok t'' => intro h; cases h

/-- C48: exactly the requested positioners known to the data base are processed. -/
theorem C48_posids {ι : Type} [DecidableEq ι] (db : List ι) (only : List ι) (p : ι) :
    p ∈ selectPosids db (some only) ↔ p ∈ db ∧ p ∈ only := by
  simp [selectPosids]

/-- C48 (finding): the documented `--pos-ids movers` is taken as a positioner name, so nothing is
processed when (as always) no positioner has that name. -/
theorem C48_movers (db : List String) (h : "movers" ∉ db) : selectPosids db (some ["movers"]) = [] := by
  unfold selectPosids
  rw [List.filter_eq_nil_iff]
  intro p hp
  simp only [List.mem_singleton, decide_eq_true_eq]
  rintro rfl
  exact h hp

/-- Two calibrations, a move between them and one after: hypotheses met. -/
example : InForceAt ([⟨1, 10⟩, ⟨3, 20⟩] : List (Calib ℕ)) 2 10 ∧ InForceAt ([⟨1, 10⟩, ⟨3, 20⟩] : List (Calib ℕ)) 3 20 :=
  ⟨⟨[], ⟨1, 10⟩, [⟨3, 20⟩], rfl, by decide, by simp; decide, rfl⟩, ⟨[⟨1, 10⟩], ⟨3, 20⟩, [], rfl, by decide, by simp, rfl⟩⟩

end Verif.Props
