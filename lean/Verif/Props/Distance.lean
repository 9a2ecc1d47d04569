import Verif.Model.Distance
import Mathlib.Data.List.Sort
import Mathlib.Tactic.Linarith
import Mathlib.Tactic.NormNum

/-!
# C107: distances from the centre, moves and centres of fiducials
-/

namespace Verif.Props.Distance
open Verif.Py Verif.Model.Distance

/-! ## Distances -/

/-- `r` is the first row of the metrology with the location of the spot, which is matched. -/
def Device (m : List Metro) (s : Spot) (r : Metro) : Prop :=
  0 ≤ s.loc ∧ ∃ a b, m = a ++ r :: b ∧ r.loc = s.loc ∧ ∀ q ∈ a, q.loc ≠ s.loc

/-- `v` is the distance of the last spot of device `p`. -/
def LastSpot (m : List Metro) (t : List Spot) (p : PyStr) (v : ℝ) : Prop :=
  ∃ a s b r, t = a ++ s :: b ∧ Device m s r ∧ r.id = p ∧ v = Real.sqrt ((s.x - r.x) ^ 2 + (s.y - r.y) ^ 2) ∧
    ∀ s' ∈ b, ∀ r', Device m s' r' → r'.id ≠ p

theorem find_iff (m : List Metro) (k : ℤ) (r : Metro) :
    (m.find? fun r => decide (r.loc = k)) = some r ↔ ∃ a b, m = a ++ r :: b ∧ r.loc = k ∧ ∀ q ∈ a, q.loc ≠ k := by
  rw [List.find?_eq_some_iff_append]
  simp only [decide_eq_true_eq, Bool.not_eq_true', decide_eq_false_iff_not]
  constructor
  · rintro ⟨h, a, b, e, h2⟩; exact ⟨a, b, e, h, h2⟩
  · rintro ⟨a, b, e, h, h2⟩; exact ⟨h, a, b, e, h2⟩

theorem device_iff (m : List Metro) (s : Spot) (r : Metro) :
    Device m s r ↔ 0 ≤ s.loc ∧ (m.find? fun r => decide (r.loc = s.loc)) = some r := by
  rw [find_iff]; rfl

theorem addSpot_get (ids : Option (List PyStr)) (m : List Metro) (d : Dict PyStr ℝ) (s : Spot) (p : PyStr) (hp : ∀ l, ids = some l → p ∈ l) :
    (∀ r, Device m s r → r.id = p → (addSpot ids m d s).get? p = some (Real.sqrt ((s.x - r.x) ^ 2 + (s.y - r.y) ^ 2))) ∧
    ((∀ r, Device m s r → r.id ≠ p) → (addSpot ids m d s).get? p = d.get? p) := by
  unfold addSpot
  constructor
  · intro r hr e
    rw [device_iff] at hr
    rw [if_neg (by omega), hr.2]
    dsimp only
    rcases ids with _ | l
    · dsimp only; rw [e, Dict.get?_set_self]
    · dsimp only; rw [e, if_neg (by simpa using hp l rfl), Dict.get?_set_self]
  · intro h
    split_ifs with h0
    · rfl
    · obtain ⟨o, hm⟩ : ∃ o, (m.find? fun r => decide (r.loc = s.loc)) = o := ⟨_, rfl⟩
      rw [hm]
      rcases o with _ | r
      · rfl
      · have hne := h r ((device_iff _ _ _).2 ⟨by omega, hm⟩)
        dsimp only
        rcases ids with _ | l
        · dsimp only; rw [Dict.get?_set_ne _ _ hne]
        · dsimp only
          split_ifs
          · rw [Dict.get?_set_ne _ _ hne]
          · rfl

theorem addSpot_other (l : List PyStr) (m : List Metro) (d : Dict PyStr ℝ) (s : Spot) (p : PyStr) (hp : p ∉ l) :
    (addSpot (some l) m d s).get? p = d.get? p := by
  unfold addSpot
  split_ifs with h0
  · rfl
  · obtain ⟨o, hm⟩ : ∃ o, (m.find? fun r => decide (r.loc = s.loc)) = o := ⟨_, rfl⟩
    rw [hm]
    rcases o with _ | r
    · rfl
    · dsimp only
      split_ifs with h
      · rw [Dict.get?_set_ne]
        rintro rfl
        exact hp h
      · rfl

theorem device_unique {m : List Metro} {s : Spot} {r r' : Metro} (h : Device m s r) (h' : Device m s r') : r = r' := by
  rw [device_iff] at h h'
  rw [h.2] at h'
  exact Option.some.inj h'.2

theorem foldl_get (ids : Option (List PyStr)) (m : List Metro) (t : List Spot) (p : PyStr) (hp : ∀ l, ids = some l → p ∈ l)
    (d : Dict PyStr ℝ) (v : ℝ) :
    (t.foldl (addSpot ids m) d).get? p = some v ↔
      LastSpot m t p v ∨ ((∀ s ∈ t, ∀ r, Device m s r → r.id ≠ p) ∧ d.get? p = some v) := by
  induction t generalizing d with
  | nil =>
    constructor
    · intro h; exact Or.inr ⟨by simp, h⟩
    · rintro (⟨a, s, b, r, e, -⟩ | ⟨-, h⟩)
      · exact absurd e (by simp)
      · exact h
  | cons s t ih =>
    rw [List.foldl_cons, ih]
    obtain ⟨h1, h2⟩ := addSpot_get ids m d s p hp
    constructor
    · rintro (⟨a, s', b, r, e, h⟩ | ⟨h3, h4⟩)
      · exact Or.inl ⟨s :: a, s', b, r, by rw [e]; rfl, h⟩
      · by_cases hd : ∃ r, Device m s r ∧ r.id = p
        · obtain ⟨r, hr, e⟩ := hd
          rw [h1 r hr e] at h4
          exact Or.inl ⟨[], s, t, r, rfl, hr, e, (Option.some.inj h4).symm, h3⟩
        · push Not at hd
          rw [h2 hd] at h4
          refine Or.inr ⟨?_, h4⟩
          intro s' hs'
          rcases List.mem_cons.1 hs' with rfl | hs'
          · exact hd
          · exact h3 s' hs'
    · rintro (⟨a, s', b, r, e, hr, hid, hv, hlast⟩ | ⟨h3, h4⟩)
      · rcases a with _ | ⟨s0, a⟩
        · obtain ⟨rfl, rfl⟩ := List.cons.inj e
          exact Or.inr ⟨hlast, by rw [h1 r hr hid, hv]⟩
        · obtain ⟨rfl, rfl⟩ := List.cons.inj e
          exact Or.inl ⟨a, s', b, r, rfl, hr, hid, hv, hlast⟩
      · refine Or.inr ⟨fun s' hs' => h3 s' (List.mem_cons_of_mem _ hs'), ?_⟩
        rw [h2 (h3 s List.mem_cons_self)]
        exact h4

theorem start_get (l : List PyStr) (p : PyStr) : (start (some l)).get? p = if p ∈ l then some (-1) else none := by
  have : ∀ d : Dict PyStr ℝ, (l.foldl (fun d p => d.set p (-1)) d).get? p = if p ∈ l then some (-1) else d.get? p := by
    induction l with
    | nil => intro d; simp
    | cons a t ih =>
      intro d
      rw [List.foldl_cons, ih, Dict.get?_set]
      by_cases h : p ∈ t
      · simp [h]
      · by_cases h2 : a = p
        · subst h2; simp
        · simp [h, h2, Ne.symm h2]
  exact this []

/-- **C107** Without a list of positioners every device with a matched spot has the distance of the last of its spots from the centre in the
metrology; the device of a spot is that of the first row with its location. With a list exactly the positioners in it are
printed, with -1 where there is no spot. -/
theorem C107_distance (m : List Metro) (t : List Spot) (p : PyStr) (v : ℝ) :
    ((distances none m t).get? p = some v ↔ LastSpot m t p v) ∧
    ∀ l, (distances (some l) m t).get? p = some v ↔ p ∈ l ∧
      (LastSpot m t p v ∨ ((∀ s ∈ t, ∀ r, Device m s r → r.id ≠ p) ∧ v = -1)) := by
  constructor
  · unfold distances
    rw [foldl_get none m t p (fun _ h => nomatch h)]
    constructor
    · rintro (h | ⟨-, h⟩)
      · exact h
      · cases h
    · exact Or.inl
  · intro l
    unfold distances
    by_cases hp : p ∈ l
    · rw [foldl_get (some l) m t p (fun _ h => Option.some.inj h ▸ hp), start_get, if_pos hp, and_iff_right hp]
      constructor
      · rintro (h | ⟨h, e⟩)
        · exact Or.inl h
        · exact Or.inr ⟨h, (Option.some.inj e).symm⟩
      · rintro (h | ⟨h, e⟩)
        · exact Or.inl h
        · exact Or.inr ⟨h, by rw [e]⟩
    · have : ∀ d : Dict PyStr ℝ, (t.foldl (addSpot (some l) m) d).get? p = d.get? p := by
        induction t with
        | nil => intro d; rfl
        | cons s t ih => intro d; rw [List.foldl_cons, ih, addSpot_other _ _ _ _ _ hp]
      rw [this, start_get, if_neg hp]
      constructor
      · intro h; cases h
      · rintro ⟨h, -⟩; exact absurd h hp

/-- No distance is negative except the -1 of a positioner without spot. -/
theorem lastSpot_nonneg {m : List Metro} {t : List Spot} {p : PyStr} {v : ℝ} (h : LastSpot m t p v) : 0 ≤ v := by
  obtain ⟨a, s, b, r, -, -, -, rfl, -⟩ := h
  exact Real.sqrt_nonneg _

open Classical in
theorem len_split {P Q R : ℝ → Prop} (h1 : ∀ v, P v ↔ Q v ∨ R v) (h2 : ∀ v, Q v → ¬ R v) (d : Dict PyStr ℝ) :
    (having P d).length = (having Q d).length + (having R d).length := by
  unfold having
  simp only [List.length_map]
  induction d with
  | nil => rfl
  | cons e t ih =>
    simp only [List.filter_cons]
    by_cases hq : Q e.2
    · have hp : P e.2 := (h1 _).2 (Or.inl hq)
      have hr : ¬ R e.2 := h2 _ hq
      simp only [hp, hq, hr, decide_true, decide_false, if_true, if_false, Bool.false_eq_true, List.length_cons]
      omega
    · by_cases hr : R e.2
      · have hp : P e.2 := (h1 _).2 (Or.inr hr)
        simp only [hp, hq, hr, decide_true, decide_false, if_true, if_false, Bool.false_eq_true, List.length_cons]
        omega
      · have hp : ¬ P e.2 := fun h => ((h1 _).1 h).elim hq hr
        simp only [hp, hq, hr, decide_false, if_false, Bool.false_eq_true]
        omega

open Classical in
theorem len_eq (c : ℝ) (d : Dict PyStr ℝ) : (d.filter fun e => decide (e.2 = c)).length = (having (fun v => v = c) d).length := by
  unfold having
  rw [List.length_map]

theorem mem_of_get? {d : Dict PyStr ℝ} {p : PyStr} {v : ℝ} (h : d.get? p = some v) : (p, v) ∈ d := by
  induction d with
  | nil => cases h
  | cons a t ih =>
    obtain ⟨k, w⟩ := a
    unfold Dict.get? at h
    split_ifs at h with hk
    · subst hk
      rw [Option.some.inj h]
      exact List.mem_cons_self
    · exact List.mem_cons_of_mem _ (ih h)

theorem distances_nodup (ids : Option (List PyStr)) (m : List Metro) (t : List Spot) : (Dict.keys (distances ids m t)).Nodup := by
  unfold distances
  have h0 : (Dict.keys (start ids)).Nodup := by
    rcases ids with _ | l
    · exact List.nodup_nil
    · have : ∀ d : Dict PyStr ℝ, (Dict.keys d).Nodup → (Dict.keys (l.foldl (fun d p => d.set p (-1)) d)).Nodup := by
        induction l with
        | nil => intro d h; exact h
        | cons a u ih => intro d h; exact ih _ (Dict.nodup_keys_set _ _ _ h)
      exact this [] List.nodup_nil
  generalize start ids = d at h0
  induction t generalizing d with
  | nil => exact h0
  | cons s u ih =>
    refine ih _ ?_
    unfold addSpot
    split_ifs
    · exact h0
    · split
      · exact h0
      · split
        · split_ifs
          · exact Dict.nodup_keys_set _ _ _ h0
          · exact h0
        · exact Dict.nodup_keys_set _ _ _ h0

/-- **C107** The lists printed are those of the distances in (3, 4], (4, 5], (5, 6] and above 6: a positioner farther than 3 mm is in exactly one
of them, and one within 3 mm in none. -/
theorem C107_listings (ids : Option (List PyStr)) (m : List Metro) (t : List Spot) (d : Dict PyStr ℝ) (e : d = distances ids m t)
    (p : PyStr) (v : ℝ) (hv : d.get? p = some v) :
    ∃ l3 l4 l5 l6, listings d = [l6, l5, l4, l3] ∧ (p ∈ l3 ↔ 3 < v ∧ v ≤ 4) ∧ (p ∈ l4 ↔ 4 < v ∧ v ≤ 5) ∧
      (p ∈ l5 ↔ 5 < v ∧ v ≤ 6) ∧ (p ∈ l6 ↔ 6 < v) := by
  have hk : (Dict.keys d).Nodup := by rw [e]; exact distances_nodup ids m t
  have hd : (p, v) ∈ d := mem_of_get? hv
  have key : ∀ q : ℝ → Prop, p ∈ having q d ↔ q v := by
    intro q
    unfold having
    simp only [List.mem_map, List.mem_filter, decide_eq_true_eq]
    constructor
    · rintro ⟨⟨p', v'⟩, ⟨h1, h2⟩, rfl⟩
      have : ∀ (l : List (PyStr × ℝ)), (l.map Prod.fst).Nodup → (p', v') ∈ l → (p', v) ∈ l → v' = v := by
        intro l hl a b
        have := List.inj_on_of_nodup_map hl a b rfl
        exact (Prod.mk.inj this).2
      rw [← this d hk h1 hd]
      exact h2
    · intro h
      exact ⟨(p, v), ⟨hd, h⟩, rfl⟩
  exact ⟨_, _, _, _, rfl, key _, key _, key _, key _⟩

open Classical in
/-- **C107** (finding) The numbers printed leave out positioners exactly at the centre: they are neither matched nor unmatched. And the bounds
of the numbers (less than 3, 4, 5, 6) are not those of the lists: a positioner exactly at 4 mm is in the list of those below 4 mm
but not in the number of those below 4 mm. -/
theorem C107_counts (d : Dict PyStr ℝ) :
    ∃ n n3 n4 n5 n6 u, counts d = [n, n3, n4, n5, n6, u] ∧ n + u + (d.filter fun e => decide (e.2 = 0)).length = d.length ∧
      ∀ l3 l4 l5 l6, listings d = [l6, l5, l4, l3] →
        n = n3 + (d.filter fun e => decide (e.2 = 3)).length + l3.length + l4.length + l5.length + l6.length ∧
        n4 + (d.filter fun e => decide (e.2 = 4)).length = n3 + (d.filter fun e => decide (e.2 = 3)).length + l3.length ∧
        n5 + (d.filter fun e => decide (e.2 = 5)).length = n4 + (d.filter fun e => decide (e.2 = 4)).length + l4.length ∧
        n6 + (d.filter fun e => decide (e.2 = 6)).length = n5 + (d.filter fun e => decide (e.2 = 5)).length + l5.length := by
  refine ⟨_, _, _, _, _, _, rfl, ?_, ?_⟩
  · have e1 : d.length = (having (fun _ => True) d).length := by
      unfold having; simp
    have e2 := len_split (P := fun _ => True) (Q := fun v => 0 < v) (R := fun v => v ≤ 0) (fun v => by simp [lt_or_ge])
      (fun v h => not_le.2 h) d
    have e3 := len_split (P := fun v => v ≤ 0) (Q := fun v => v < 0) (R := fun v => v = 0) (fun v => le_iff_lt_or_eq)
      (fun v h => h.ne) d
    rw [len_eq]
    omega
  · intro l3 l4 l5 l6 hl
    unfold listings at hl
    simp only [List.cons.injEq, and_true] at hl
    obtain ⟨rfl, rfl, rfl, rfl⟩ := hl
    have lower : ∀ c : ℝ, 0 < c → (having (fun v => 0 < v ∧ v ≤ c) d).length =
        (having (fun v => 0 < v ∧ v < c) d).length + (having (fun v => v = c) d).length := by
      intro c hc
      refine len_split (fun v => ?_) (fun v h => h.2.ne) d
      constructor
      · rintro ⟨h, h'⟩
        rcases h'.lt_or_eq with h' | h'
        · exact Or.inl ⟨h, h'⟩
        · exact Or.inr h'
      · rintro (⟨h, h'⟩ | h)
        · exact ⟨h, h'.le⟩
        · exact ⟨by rw [h]; exact hc, h.le⟩
    have step : ∀ b c : ℝ, 0 < b → b < c → (having (fun v => 0 < v ∧ v ≤ c) d).length =
        (having (fun v => 0 < v ∧ v ≤ b) d).length + (having (fun v => b < v ∧ v ≤ c) d).length := by
      intro b c hb hc
      refine len_split (fun v => ?_) (fun v h h' => absurd h.2 (not_le.2 h'.1)) d
      constructor
      · rintro ⟨h, h'⟩
        rcases le_or_gt v b with h2 | h2
        · exact Or.inl ⟨h, h2⟩
        · exact Or.inr ⟨h2, h'⟩
      · rintro (⟨h, h'⟩ | ⟨h, h'⟩)
        · exact ⟨h, h'.trans hc.le⟩
        · exact ⟨hb.trans h, h'⟩
    have top := len_split (P := fun v : ℝ => 0 < v) (Q := fun v => 0 < v ∧ v ≤ 6) (R := fun v => 6 < v)
      (fun v => by
        constructor
        · intro h
          rcases le_or_gt v 6 with h' | h'
          · exact Or.inl ⟨h, h'⟩
          · exact Or.inr h'
        · rintro (h | h)
          · exact h.1
          · linarith) (fun v h => not_lt.2 h.2) d
    have a3 := lower 3 (by norm_num)
    have a4 := lower 4 (by norm_num)
    have a5 := lower 5 (by norm_num)
    have a6 := lower 6 (by norm_num)
    have b4 := step 3 4 (by norm_num) (by norm_num)
    have b5 := step 4 5 (by norm_num) (by norm_num)
    have b6 := step 5 6 (by norm_num) (by norm_num)
    simp only [len_eq]
    omega

/-! ## Moves -/

/-- The recorded positions of positioner `p` in the order of the moves. -/
def Track (rows : List Move) (p : PyStr) (tr : List (ℝ × Option ℝ)) : Prop :=
  ∃ s : List Move, s.Perm (rows.filter fun r => decide (r.posid = p)) ∧ s.Pairwise (fun a b => a.index ≤ b.index) ∧
    tr = s.filterMap fun r => match r.x with
      | none => none
      | some x => some (x, r.y)

/-- **C107** A line is written for a positioner exactly if it has two recorded positions or more; then it has one flag for every two
consecutive ones, which is set exactly if they are more than 0.05 mm apart. A position without y counts as one that did not change. -/
theorem C107_moving (sort : List Move → List Move) (hs : ∀ l, (sort l).Perm l ∧ (sort l).Pairwise fun a b => a.index ≤ b.index)
    (rows : List Move) (p : PyStr) : ∃ tr, Track rows p tr ∧
      (moving sort rows p = none ↔ tr.length < 2) ∧
      ∀ bus fl, moving sort rows p = some (bus, fl) → (∃ r ∈ rows, r.posid = p ∧ r.bus = bus) ∧ fl.length + 1 = tr.length ∧
        ∀ (i : ℕ) a b, tr[i]? = some a → tr[i + 1]? = some b → ∃ f, fl[i]? = some f ∧
          (f = true ↔ ∃ ya yb, a.2 = some ya ∧ b.2 = some yb ∧ 0.05 ^ 2 < (a.1 - b.1) ^ 2 + (ya - yb) ^ 2) := by
  obtain ⟨L, hL⟩ : ∃ L, (rows.filter fun r => decide (r.posid = p)) = L := ⟨_, rfl⟩
  refine ⟨recorded (sort L), ⟨sort L, ?_, (hs L).2, ?_⟩, ?_⟩
  · rw [hL]; exact (hs L).1
  · unfold recorded
    congr 1
    funext r
    cases r.x <;> rfl
  unfold moving
  rw [hL]
  rcases L with _ | ⟨r, l⟩
  · have : sort [] = [] := List.Perm.eq_nil (hs []).1
    rw [this]
    refine ⟨by simp [recorded], ?_⟩
    intro bus fl h; cases h
  dsimp only
  generalize recorded (sort (r :: l)) = tr
  by_cases h2 : tr.length < 2
  · rw [if_pos h2]
    exact ⟨⟨fun _ => h2, fun _ => rfl⟩, fun _ _ h => nomatch h⟩
  · rw [if_neg h2]
    refine ⟨⟨fun h => (nomatch h), fun h => absurd h h2⟩, ?_⟩
    intro bus fl h
    obtain ⟨rfl, rfl⟩ := Prod.mk.inj (Option.some.inj h)
    refine ⟨?_, ?_, ?_⟩
    · have : r ∈ rows.filter fun r => decide (r.posid = p) := by rw [hL]; exact List.mem_cons_self
      exact ⟨r, (List.mem_filter.1 this).1, of_decide_eq_true (List.mem_filter.1 this).2, rfl⟩
    · rw [List.length_zipWith, List.length_tail]
      omega
    · intro i a b ha hb
      refine ⟨moved a b, ?_, ?_⟩
      · rw [List.getElem?_zipWith, ha, List.getElem?_tail, hb]
      · unfold moved
        rcases a with ⟨xa, _ | ya⟩
        · simp
        rcases b with ⟨xb, _ | yb⟩
        · simp
        simp only [decide_eq_true_eq, Option.some.injEq]
        rw [Real.lt_sqrt (by norm_num)]
        rw [show (xb - xa) ^ 2 + (yb - ya) ^ 2 = (xa - xb) ^ 2 + (ya - yb) ^ 2 by ring]
        constructor
        · intro h; exact ⟨ya, yb, rfl, rfl, h⟩
        · rintro ⟨_, _, rfl, rfl, h⟩; exact h

/-! ## Centres of fiducials -/

theorem mem_insertLoc (a b : ℤ) (l : List ℤ) : b ∈ insertLoc a l ↔ b = a ∨ b ∈ l := by
  induction l with
  | nil => simp [insertLoc]
  | cons c l ih =>
    unfold insertLoc
    split_ifs with h1 h2
    · simp
    · subst h2; simp
    · rw [List.mem_cons, ih, List.mem_cons]; tauto

theorem sorted_insertLoc (a : ℤ) (l : List ℤ) (h : l.Pairwise (· < ·)) : (insertLoc a l).Pairwise (· < ·) := by
  induction l with
  | nil => simp [insertLoc]
  | cons c l ih =>
    unfold insertLoc
    rw [List.pairwise_cons] at h
    split_ifs with h1 h2
    · rw [List.pairwise_cons, List.pairwise_cons]
      refine ⟨?_, h⟩
      intro b hb
      rcases List.mem_cons.1 hb with rfl | hb
      · exact h1
      · exact h1.trans (h.1 b hb)
    · exact List.pairwise_cons.2 h
    · rw [List.pairwise_cons]
      refine ⟨?_, ih h.2⟩
      intro b hb
      rcases (mem_insertLoc a b l).1 hb with rfl | hb
      · omega
      · exact h.1 b hb

theorem fidLocs_spec (m : List Dot) : (fidLocs m).Pairwise (· < ·) ∧ ∀ k, k ∈ fidLocs m ↔ ∃ r ∈ m, r.fid = true ∧ r.loc = k := by
  have : ∀ l : List ℤ, (l.foldr insertLoc []).Pairwise (· < ·) ∧ ∀ k, k ∈ l.foldr insertLoc [] ↔ k ∈ l := by
    intro l
    induction l with
    | nil => simp
    | cons a t ih =>
      rw [List.foldr_cons]
      refine ⟨sorted_insertLoc _ _ ih.1, ?_⟩
      intro k
      rw [mem_insertLoc, ih.2, List.mem_cons]
  unfold fidLocs
  refine ⟨(this _).1, ?_⟩
  intro k
  rw [(this _).2, List.mem_map]
  constructor
  · rintro ⟨r, hr, rfl⟩
    exact ⟨r, (List.mem_filter.1 hr).1, (List.mem_filter.1 hr).2, rfl⟩
  · rintro ⟨r, hr, hf, rfl⟩
    exact ⟨r, List.mem_filter.2 ⟨hr, hf⟩, rfl⟩

/-- **C107** The centres of fiducials: one line for every location with a row of type FIF or GIF, in ascending order of locations; its name is that
of the first row of the location, and its coordinates the means over all rows of the location: the deviations of the rows add up to
zero. -/
theorem C107_centers (m : List Dot) : ∃ ks : List ℤ, ks.Pairwise (· < ·) ∧ (∀ k, k ∈ ks ↔ ∃ r ∈ m, r.fid = true ∧ r.loc = k) ∧
    List.Forall₂ (fun k (c : Line) => (∃ a r b, m = a ++ r :: b ∧ r.loc = k ∧ (∀ q ∈ a, q.loc ≠ k) ∧ c.id = r.id ∧ c.dev = r.dev) ∧
      ((m.filter fun r => decide (r.loc = k)).map fun r => r.p.1 - c.p.1).sum = 0 ∧
      ((m.filter fun r => decide (r.loc = k)).map fun r => r.p.2.1 - c.p.2.1).sum = 0 ∧
      ((m.filter fun r => decide (r.loc = k)).map fun r => r.p.2.2 - c.p.2.2).sum = 0) ks (centers m) := by
  refine ⟨fidLocs m, (fidLocs_spec m).1, (fidLocs_spec m).2, ?_⟩
  have hmean : ∀ (r : Dot) (l : List Dot) (f : Dot → ℝ), ((r :: l).map fun q => f q - mean ((r :: l).map f)).sum = 0 := by
    intro r l f
    have : ∀ (L : List Dot) (c : ℝ), (L.map fun q => f q - c).sum = (L.map f).sum - L.length * c := by
      intro L c
      induction L with
      | nil => simp
      | cons a t ih => simp only [List.map_cons, List.sum_cons, ih, List.length_cons]; push_cast; ring
    rw [this]
    unfold mean
    rw [List.length_map]
    have : ((r :: l).length : ℝ) ≠ 0 := by
      rw [List.length_cons]; positivity
    field_simp
    ring
  have hline : ∀ k ∈ fidLocs m, ∃ c, line? m k = some c ∧ ((∃ a r b, m = a ++ r :: b ∧ r.loc = k ∧ (∀ q ∈ a, q.loc ≠ k) ∧ c.id = r.id ∧ c.dev = r.dev) ∧
      ((m.filter fun r => decide (r.loc = k)).map fun r => r.p.1 - c.p.1).sum = 0 ∧
      ((m.filter fun r => decide (r.loc = k)).map fun r => r.p.2.1 - c.p.2.1).sum = 0 ∧
      ((m.filter fun r => decide (r.loc = k)).map fun r => r.p.2.2 - c.p.2.2).sum = 0) := by
    intro k hk
    obtain ⟨r0, hr0, -, e0⟩ := ((fidLocs_spec m).2 k).1 hk
    obtain ⟨L, hL⟩ : ∃ L, (m.filter fun r => decide (r.loc = k)) = L := ⟨_, rfl⟩
    unfold line?
    rw [hL]
    rcases L with _ | ⟨r, l⟩
    · have : r0 ∈ m.filter fun r => decide (r.loc = k) := List.mem_filter.2 ⟨hr0, by simpa using e0⟩
      rw [hL] at this
      cases this
    refine ⟨_, rfl, ?_, hmean r l fun q => q.p.1, hmean r l fun q => q.p.2.1, hmean r l fun q => q.p.2.2⟩
    obtain ⟨a, b, e, h1, h2, -⟩ := List.filter_eq_cons_iff.1 hL
    exact ⟨a, r, b, e, of_decide_eq_true h2, fun q hq => by simpa using h1 q hq, rfl, rfl⟩
  unfold centers
  generalize fidLocs m = ks at hline
  induction ks with
  | nil => exact List.Forall₂.nil
  | cons k t ih =>
    obtain ⟨c, hc, h⟩ := hline k List.mem_cons_self
    rw [List.filterMap_cons_some (b := c) hc]
    exact List.Forall₂.cons h (ih fun k' hk' => hline k' (List.mem_cons_of_mem _ hk'))

/-- A sorting routine as in the hypothesis of `C107_moving`. -/
example : ∃ sort : List Move → List Move, ∀ l, (sort l).Perm l ∧ (sort l).Pairwise fun a b => a.index ≤ b.index :=
  ⟨fun l => l.mergeSort fun a b => decide (a.index ≤ b.index), fun l => ⟨List.mergeSort_perm _ _,
    (List.pairwise_mergeSort (fun a b c h1 h2 => by simp at *; omega) (fun a b => by simp; omega) l).imp (by simp)⟩⟩

/-- Two spots at one location: the second counts. -/
example : (distances none [⟨5, ['A'], 0, 0⟩] [⟨5, 1, 1⟩, ⟨5, 3, 4⟩]).get? ['A'] = some 5 := by
  refine ((C107_distance _ _ _ _).1).2 ⟨[⟨5, 1, 1⟩], ⟨5, 3, 4⟩, [], ⟨5, ['A'], 0, 0⟩, rfl, ⟨by norm_num, [], [], rfl, rfl, by simp⟩, rfl, ?_, by simp⟩
  rw [eq_comm, Real.sqrt_eq_iff_mul_self_eq_of_pos (by norm_num)]
  norm_num

end Verif.Props.Distance
