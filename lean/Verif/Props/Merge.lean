import Verif.Model.Merge
import Mathlib.Data.List.Basic

namespace Verif.Props
open Verif.Py Verif.Model.Merge

variable {κ : Type} [DecidableEq κ]

/-- `m` is the entry of the metrology table that counts for a device: the last with its name. -/
def InForce (metr : List (Row κ)) (p : κ) (m : Row κ) : Prop :=
  ∃ a b, metr = a ++ m :: b ∧ m.id = p ∧ ∀ x ∈ b, x.id ≠ p

namespace Mrg

theorem pid2ind_some (metr : List (Row κ)) (p : κ) (m : Row κ) : pid2ind metr p = some m ↔ InForce metr p m := by
  unfold pid2ind InForce
  rw [List.find?_eq_some_iff_append]
  constructor
  · rintro ⟨h1, as, bs, h2, h3⟩
    refine ⟨bs.reverse, as.reverse, ?_, by simpa using h1, ?_⟩
    · have := congrArg List.reverse h2
      simpa using this
    · intro x hx
      simpa using h3 x (by simpa using hx)
  · rintro ⟨a, b, h1, h2, h3⟩
    refine ⟨by simpa using h2, b.reverse, a.reverse, by rw [h1]; simp, ?_⟩
    intro x hx
    simpa using h3 x (by simpa using hx)

theorem pid2ind_none (metr : List (Row κ)) (p : κ) : pid2ind metr p = none ↔ ∀ m ∈ metr, m.id ≠ p := by
  unfold pid2ind
  rw [List.find?_eq_none]
  constructor
  · intro h m hm; simpa using h m (by simpa using hm)
  · intro h m hm; simpa using h m (by simpa using hm)

theorem checkRow_all (hasCol : Key → Bool) (h : ∀ k, hasCol k = true) (r m : Row κ) (ks : List Key) :
    checkRow hasCol r m ks = .ok (ks.filter fun k => r.val k ≠ m.val k) := by
  induction ks with
  | nil => rfl
  | cons k ks ih =>
    rw [checkRow, if_pos (h k), ih]
    simp only [List.filter_cons, decide_eq_true_eq]

theorem checkLoop_all (metr : List (Row κ)) (hasCol : Key → Bool) (h : ∀ k, hasCol k = true) (l : List (Row κ × ℕ)) :
    ∃ errs, checkLoop metr hasCol l = .ok errs ∧
      ∀ j k, (j, k) ∈ errs ↔ ∃ r m, (r, j) ∈ l ∧ pid2ind metr r.id = some m ∧ r.val k ≠ m.val k := by
  induction l with
  | nil => exact ⟨[], rfl, by simp⟩
  | cons x l ih =>
    obtain ⟨r, i⟩ := x
    obtain ⟨errs, he, hm⟩ := ih
    rw [checkLoop]
    cases hp : pid2ind metr r.id with
    | none =>
      refine ⟨errs, he, ?_⟩
      intro j k
      rw [hm]
      constructor
      · rintro ⟨r', m, h1, h2⟩; exact ⟨r', m, by simp [h1], h2⟩
      · rintro ⟨r', m, h1, h2, h3⟩
        rcases List.mem_cons.1 h1 with h1 | h1
        · injection h1 with h1 h1'
          rw [h1, hp] at h2; cases h2
        · exact ⟨r', m, h1, h2, h3⟩
    | some m0 =>
      simp only
      rw [checkRow_all hasCol h, he]
      refine ⟨_, rfl, ?_⟩
      intro j k
      rw [List.mem_append, List.mem_map, hm]
      constructor
      · rintro (⟨k', hk', h1⟩ | ⟨r', m, h1, h2⟩)
        · injection h1 with h1 h1'
          subst h1 h1'
          exact ⟨r, m0, by simp, hp, by simpa using (List.mem_filter.1 hk').2⟩
        · exact ⟨r', m, by simp [h1], h2⟩
      · rintro ⟨r', m, h1, h2, h3⟩
        rcases List.mem_cons.1 h1 with h1 | h1
        · injection h1 with h1 h1'
          subst h1 h1'
          rw [hp] at h2
          injection h2 with h2
          subst h2
          left
          refine ⟨k, List.mem_filter.2 ⟨?_, by simpa using h3⟩, rfl⟩
          cases k <;> decide
        · exact Or.inr ⟨r', m, h1, h2, h3⟩

end Mrg
open Mrg

/-- C47: with complete location columns the table is written unchanged, and an error message is
logged for exactly the (row, column) pairs that disagree with the metrology entry in force.
(Finding: disagreement does not stop the program, see `C47_written_despite_mismatch`.) -/
theorem C47_messages (metr : List (Row κ)) (t : Table κ) (hid : t.hasId = true) (hcol : ∀ k, t.hasCol k = true) :
    ∃ errs, merge false false metr t = .ok ⟨t, errs⟩ ∧
      ∀ j k, (j, k) ∈ errs ↔ ∃ r m, t.rows[j]? = some r ∧ InForce metr r.id m ∧ r.val k ≠ m.val k := by
  have h1 : addLocation t = t := by
    unfold addLocation; rw [if_neg]; simp [hcol]
  obtain ⟨errs, he, hm⟩ := checkLoop_all metr t.hasCol hcol t.rows.zipIdx
  refine ⟨errs, ?_, ?_⟩
  · unfold merge
    simp only [h1, hid, hcol, Bool.not_true, Bool.false_and, Bool.false_eq_true, if_false, Bool.not_false, Bool.and_self, if_true]
    rw [he]
  · intro j k
    rw [hm]
    constructor
    · rintro ⟨r, m, h2, h3, h4⟩
      exact ⟨r, m, List.mem_zipIdx_iff_getElem?.1 h2, (pid2ind_some _ _ _).1 h3, h4⟩
    · rintro ⟨r, m, h2, h3, h4⟩
      exact ⟨r, m, List.mem_zipIdx_iff_getElem?.2 h2, (pid2ind_some _ _ _).2 h3, h4⟩

/-- C47 (finding): the program writes its output although every location disagrees. -/
theorem C47_written_despite_mismatch : ∃ (metr : List (Row ℕ)) (t : Table ℕ) (out : Outcome ℕ),
    merge false false metr t = .ok out ∧ out.written = t ∧
      (∀ j < t.rows.length, ∀ k, (j, k) ∈ out.errors) ∧ t.rows ≠ [] := by
  let metr : List (Row ℕ) := [⟨7, fun _ => 5⟩]
  let t : Table ℕ := ⟨true, fun _ => true, [⟨7, fun _ => 6⟩]⟩
  obtain ⟨errs, h, hm⟩ := C47_messages metr t rfl (fun _ => rfl)
  refine ⟨metr, t, _, h, rfl, ?_, by simp [t]⟩
  intro j hj k
  have : j = 0 := by simpa [t] using hj
  subst this
  exact (hm 0 k).2 ⟨⟨7, fun _ => 6⟩, ⟨7, fun _ => 5⟩, rfl, ⟨[], [], rfl, rfl, by simp⟩, by simp⟩

/-- C47: without a DEVICE_LOC column (and with metrology) the four location columns are taken
from the metrology entry in force, -1 for unknown devices, and no disagreement is reported. -/
theorem C47_filled (noCheck : Bool) (metr : List (Row κ)) (t : Table κ) (hid : t.hasId = true)
    (hcol : t.hasCol .deviceLoc = false) :
    ∃ out, merge noCheck false metr t = .ok out ∧ out.errors = [] ∧ (∀ k, out.written.hasCol k = true) ∧
      List.Forall₂ (fun r r' => r'.id = r.id ∧
        ((∃ m, InForce metr r.id m ∧ r'.val = m.val) ∨ ((∀ m ∈ metr, m.id ≠ r.id) ∧ r'.val = fun _ => -1)))
        t.rows out.written.rows := by
  have h1 : addLocation t = t := by
    unfold addLocation; rw [if_neg]; simp [hcol]
  have hrows : List.Forall₂ (fun r r' => r'.id = r.id ∧
        ((∃ m, InForce metr r.id m ∧ r'.val = m.val) ∨ ((∀ m ∈ metr, m.id ≠ r.id) ∧ r'.val = fun _ => -1)))
        t.rows (fill metr t).rows := by
    unfold fill
    simp only
    rw [List.forall₂_map_right_iff]
    induction t.rows with
    | nil => exact .nil
    | cons r l ih =>
      refine .cons ?_ ih
      cases hp : pid2ind metr r.id with
      | none => exact ⟨rfl, Or.inr ⟨(pid2ind_none _ _).1 hp, rfl⟩⟩
      | some m => exact ⟨rfl, Or.inl ⟨m, (pid2ind_some _ _ _).1 hp, rfl⟩⟩
  obtain ⟨errs, he, hm⟩ := checkLoop_all metr (fill metr t).hasCol (fun _ => rfl) (fill metr t).rows.zipIdx
  have hnil : errs = [] := by
    cases errs with
    | nil => rfl
    | cons x l =>
      exfalso
      obtain ⟨j, k⟩ := x
      obtain ⟨r, m, h2, h3, h4⟩ := (hm j k).1 (by simp)
      have hr : r ∈ (fill metr t).rows := by
        rw [List.mem_zipIdx_iff_getElem?] at h2
        exact List.mem_of_getElem? h2
      unfold fill at hr
      simp only [List.mem_map] at hr
      obtain ⟨r0, -, rfl⟩ := hr
      cases hp : pid2ind metr r0.id with
      | none => simp only [hp] at h3; cases h3
      | some m0 =>
        simp only [hp] at h3 h4
        injection h3 with h3
        rw [h3] at h4; exact h4 rfl
  refine ⟨⟨fill metr t, []⟩, ?_, rfl, fun _ => rfl, hrows⟩
  unfold merge
  simp only [h1, hid, hcol, Bool.not_true, Bool.false_eq_true, if_false, Bool.not_false, Bool.and_self, if_true, Bool.and_true]
  cases noCheck with
  | true => rfl
  | false =>
    rw [he, hnil]; rfl

/-- C47: a table with PETAL_ID, PETAL_LOC and DEVICE_LOC but without LOCATION gets the location 1000 PETAL_LOC + DEVICE_LOC, everything
else is kept, and the messages are about the table written. -/
theorem C47_location (metr : List (Row κ)) (t : Table κ) (hid : t.hasId = true) (hcol : ∀ k, k ≠ .location → t.hasCol k = true)
    (hl : t.hasCol .location = false) :
    ∃ errs t', merge false false metr t = .ok ⟨t', errs⟩ ∧ (∀ k, t'.hasCol k = true) ∧
      List.Forall₂ (fun r r' => r'.id = r.id ∧ r'.val .location = 1000 * r.val .petalLoc + r.val .deviceLoc ∧
        ∀ k, k ≠ .location → r'.val k = r.val k) t.rows t'.rows ∧
      ∀ j k, (j, k) ∈ errs ↔ ∃ r m, t'.rows[j]? = some r ∧ InForce metr r.id m ∧ r.val k ≠ m.val k := by
  have hc' : ∀ k, (addLocation t).hasCol k = true := by
    intro k
    unfold addLocation
    rw [if_pos (by simp [hl, hcol])]
    dsimp only
    by_cases hk : k = .location
    · rw [hk, Function.update_self]
    · rw [Function.update_of_ne hk, hcol k hk]
  have hid' : (addLocation t).hasId = true := by
    unfold addLocation
    split_ifs <;> exact hid
  have hrows : List.Forall₂ (fun r r' => r'.id = r.id ∧ r'.val .location = 1000 * r.val .petalLoc + r.val .deviceLoc ∧
        ∀ k, k ≠ .location → r'.val k = r.val k) t.rows (addLocation t).rows := by
    unfold addLocation
    rw [if_pos (by simp [hl, hcol])]
    dsimp only
    rw [List.forall₂_map_right_iff]
    refine List.forall₂_same.2 fun r _ => ⟨rfl, ?_, ?_⟩
    · dsimp only; rw [Function.update_self]
    · intro k hk; dsimp only; rw [Function.update_of_ne hk]
  obtain ⟨errs, he, hm⟩ := checkLoop_all metr (addLocation t).hasCol hc' (addLocation t).rows.zipIdx
  refine ⟨errs, addLocation t, ?_, hc', hrows, ?_⟩
  · unfold merge
    simp only [hid', hc', Bool.not_true, Bool.false_and, Bool.false_eq_true, if_false, Bool.not_false, Bool.and_self, if_true]
    rw [he]
  · intro j k
    rw [hm]
    constructor
    · rintro ⟨r, m, h2, h3, h4⟩
      exact ⟨r, m, List.mem_zipIdx_iff_getElem?.1 h2, (pid2ind_some _ _ _).1 h3, h4⟩
    · rintro ⟨r, m, h2, h3, h4⟩
      exact ⟨r, m, List.mem_zipIdx_iff_getElem?.2 h2, (pid2ind_some _ _ _).2 h3, h4⟩

/-- C47: a table with a DEVICE_LOC column but without PETAL_ID stops the check with KeyError as
soon as one of its devices is known. -/
theorem C47_missing_column (metr : List (Row κ)) (t : Table κ) (hid : t.hasId = true) (h1 : t.hasCol .deviceLoc = true)
    (h2 : t.hasCol .petalId = false) (h3 : ∃ r ∈ t.rows, ∃ m ∈ metr, m.id = r.id) :
    merge false false metr t = .error .keyError := by
  have hloc : (addLocation t).hasId = true ∧ (addLocation t).hasCol .deviceLoc = true ∧ (addLocation t).hasCol .petalId = false ∧
      (addLocation t).rows.map Row.id = t.rows.map Row.id := by
    unfold addLocation
    split_ifs
    · refine ⟨hid, ?_, ?_, ?_⟩
      · simpa [Function.update] using h1
      · simpa [Function.update] using h2
      · simp
    · exact ⟨hid, h1, h2, rfl⟩
  obtain ⟨g1, g2, g3, g4⟩ := hloc
  unfold merge
  simp only [g1, g2, Bool.not_true, Bool.false_and, Bool.false_eq_true, if_false, Bool.not_false, Bool.and_self, if_true]
  have hrow : ∀ r m : Row κ, checkRow (addLocation t).hasCol r m checkKeys = .error .keyError := by
    intro r m
    simp only [checkKeys, checkRow, g3, Bool.false_eq_true, if_false]
    split_ifs <;> rfl
  have hloop : ∀ l : List (Row κ × ℕ), (∃ x ∈ l, ∃ m ∈ metr, m.id = x.1.id) →
      checkLoop metr (addLocation t).hasCol l = .error .keyError := by
    intro l
    induction l with
    | nil => rintro ⟨x, hx, -⟩; cases hx
    | cons x l ih =>
      obtain ⟨r, j⟩ := x
      rintro ⟨x, hx, m, hm, e⟩
      rw [checkLoop]
      cases hp : pid2ind metr r.id with
      | none =>
        rcases List.mem_cons.1 hx with hx | hx
        · rw [hx] at e
          exact absurd e ((pid2ind_none _ _).1 hp m hm)
        · exact ih ⟨x, hx, m, hm, e⟩
      | some m0 => simp only [hrow]
  rw [hloop]
  obtain ⟨r, hr, m, hm, e⟩ := h3
  have : r.id ∈ (addLocation t).rows.map Row.id := by rw [g4]; exact List.mem_map_of_mem hr
  obtain ⟨r', hr', e'⟩ := List.mem_map.1 this
  obtain ⟨j, hj⟩ := List.mem_iff_getElem?.1 hr'
  exact ⟨(r', j), List.mem_zipIdx_iff_getElem?.2 hj, m, hm, by rw [e, ← e']⟩

example : InForce [⟨3, fun _ => 1⟩, ⟨3, fun _ => 2⟩] 3 (⟨3, fun _ => 2⟩ : Row ℕ) :=
  ⟨[⟨3, fun _ => 1⟩], [], rfl, rfl, by simp⟩

end Verif.Props
