import Verif.Model.DbQuery
import Verif.Lemmas.Str
import Mathlib.Tactic.Linarith
import Mathlib.Tactic.IntervalCases

/-!
# C128: queries of the database, petals found in it, import of pinhole references
-/

namespace Verif.Props.DbQuery
open Verif.Py Verif.Model.ProcessFvc Verif.Model.DbQuery Verif.Lemmas.Str

variable {α σ κ ν : Type}

theorem get_fold [DecidableEq κ] (l : List (κ × ν)) (d : Dict κ ν) (k : κ) :
    (l.foldl (fun d p => d.set p.1 p.2) d).get? k = ((l.reverse.find? fun p => p.1 = k).map Prod.snd).or (d.get? k) := by
  induction l generalizing d with
  | nil => simp
  | cons p l ih =>
    rw [List.foldl_cons, ih, Dict.get?_set, List.reverse_cons, List.find?_append]
    by_cases h : p.1 = k
    · rw [if_pos h]
      cases l.reverse.find? (fun p => decide (p.1 = k)) <;> simp [h]
    · rw [if_neg h]
      cases l.reverse.find? (fun p => decide (p.1 = k)) <;> simp [h]

theorem keys_fold [DecidableEq κ] (l : List (κ × ν)) (d : Dict κ ν) (hd : (Dict.keys d).Nodup) :
    (Dict.keys (l.foldl (fun d p => d.set p.1 p.2) d)).Nodup ∧
      ∀ k, k ∈ Dict.keys (l.foldl (fun d p => d.set p.1 p.2) d) ↔ k ∈ l.map Prod.fst ∨ k ∈ Dict.keys d := by
  induction l generalizing d with
  | nil => simpa using hd
  | cons p l ih =>
    obtain ⟨h1, h2⟩ := ih (d.set p.1 p.2) (Dict.nodup_keys_set _ _ _ hd)
    refine ⟨h1, fun k => ?_⟩
    rw [List.foldl_cons, h2, Dict.mem_keys_set, List.map_cons, List.mem_cons]
    tauto

/-- The column `i` of rows that all have one. -/
theorem column_eq (rows : List (List α)) (i : ℕ) (h : ∀ r ∈ rows, i < r.length) :
    ∃ c, column rows i = .ok c ∧ c.map some = rows.map fun r => r[i]? := by
  induction rows with
  | nil => exact ⟨[], rfl, rfl⟩
  | cons r t ih =>
    obtain ⟨c, hc, he⟩ := ih fun r hr => h r (by simp [hr])
    have hi := h r (by simp)
    refine ⟨r[i] :: c, ?_, by simp [he, List.getElem?_eq_getElem hi]⟩
    unfold column at hc ⊢
    rw [List.mapM_cons, hc, List.getElem?_eq_getElem hi]
    rfl

theorem query_fold (rows : List (List α)) (c : ℕ → List α) (l : List (PyStr × ℕ)) (d : Dict PyStr (List α))
    (h : ∀ p ∈ l, column rows p.2 = .ok (c p.2)) :
    l.foldlM (fun d p => do return d.set p.1 (← column rows p.2)) d =
      (.ok ((l.map fun p => (p.1, c p.2)).foldl (fun d p => d.set p.1 p.2) d) : Except PyErr _) := by
  induction l generalizing d with
  | nil => rfl
  | cons p l ih =>
    rw [List.foldlM_cons, h p (by simp)]
    exact ih _ fun q hq => h q (by simp [hq])

theorem find_last {l : List κ} (f : κ → Bool) (i : ℕ) (hi : i < l.length) (hf : f l[i] = true)
    (hl : ∀ j (hj : j < l.length), i < j → f l[j] = false) : l.reverse.find? f = some l[i] := by
  induction l generalizing i with
  | nil => simp at hi
  | cons a t ih =>
    rw [List.reverse_cons, List.find?_append]
    cases i with
    | zero =>
      have : t.reverse.find? f = none := by
        rw [List.find?_eq_none]
        intro b hb
        obtain ⟨j, hj, rfl⟩ := List.mem_iff_getElem.1 (List.mem_reverse.1 hb)
        have := hl (j + 1) (by simpa using hj) (by omega)
        simpa using this
      rw [this]
      simp only [List.getElem_cons_zero] at hf ⊢
      simp [hf]
    | succ i =>
      have := ih i (by simpa using hi) (by simpa using hf) fun j hj hij => by
        have := hl (j + 1) (by simpa using hj) (by omega)
        rwa [List.getElem_cons_succ] at this
      rw [this]
      simp

/-- **C128** A query whose rows have a cell for each name succeeds. The columns are those named, each once. The column of a name has one
cell for each row, in the order of the rows: the cells at the (last) place of the name. -/
theorem C128_query (names : List PyStr) (rows : List (List α)) (h : ∀ r ∈ rows, r.length = names.length) :
    ∃ d, dbquery names rows = .ok d ∧ (Dict.keys d).Nodup ∧ (∀ n, n ∈ Dict.keys d ↔ n ∈ names) ∧
      ∀ i (hi : i < names.length), (∀ j (hj : j < names.length), i < j → names[j] ≠ names[i]) →
        ∃ c, d.get? names[i] = some c ∧ c.length = rows.length ∧
          ∀ (k : ℕ) (r : List α), rows[k]? = some r → c[k]? = r[i]? := by
  have hc : ∀ i, ∃ c, i < names.length → column rows i = .ok c ∧ c.map some = rows.map fun r => r[i]? := by
    intro i
    by_cases hi : i < names.length
    · obtain ⟨c, h1⟩ := column_eq rows i fun r hr => by rw [h r hr]; exact hi
      exact ⟨c, fun _ => h1⟩
    · exact ⟨[], fun h => absurd h hi⟩
  choose c hc using hc
  have hz : ∀ p ∈ names.zipIdx, p.2 < names.length := by
    intro p hp
    have := List.snd_lt_of_mem_zipIdx hp
    simpa using this
  refine ⟨_, query_fold rows c _ [] fun p hp => (hc p.2 (hz p hp)).1, ?_, ?_, ?_⟩
  · exact (keys_fold _ [] List.nodup_nil).1
  · intro n
    rw [(keys_fold _ [] List.nodup_nil).2]
    have : (names.zipIdx.map fun p => (p.1, c p.2)).map Prod.fst = names := by
      rw [List.map_map]
      exact List.zipIdx_map_fst 0 names
    rw [this]
    simp [Dict.keys]
  · intro i hi hlast
    obtain ⟨_, he⟩ := hc i hi
    refine ⟨c i, ?_, by simpa using congrArg List.length he, ?_⟩
    · rw [get_fold]
      have := find_last (l := names.zipIdx.map fun p => (p.1, c p.2)) (fun p => decide (p.1 = names[i])) i (by simpa using hi)
        (by simp) (fun j hj hij => by simpa using hlast j (by simpa using hj) hij)
      rw [this]
      simp
    · intro k r hr
      have := congrArg (fun l => l[k]?) he
      simp only [List.getElem?_map, hr, Option.map_some] at this
      cases hk : (c i)[k]? with
      | none => rw [hk] at this; simp at this
      | some v => rw [hk] at this; simpa using this

example : ∃ d, dbquery ["a".toList, "b".toList] [[1, 2], [3, 4]] = .ok d ∧ d.get? "b".toList = some [2, 4] := ⟨_, rfl, by decide⟩

theorem pyIn_infix (sub s : PyStr) : pyIn sub s = true ↔ sub <:+: s := by
  induction s with
  | nil => simp [pyIn]
  | cons c t ih =>
    rw [pyIn, Bool.or_eq_true, ih, List.isPrefixOf_iff_prefix, List.infix_cons_iff]

theorem replace_pattern (s : PyStr) (hs : 'p' ∉ s) : replace pattern [] (pattern ++ s) = s := by
  have h := split_two (s0 := 'p') (s' := "ositioner_moves_p".toList) (a := []) (b := s) (by simp) fun c hc e => hs (e ▸ hc)
  unfold replace
  have e : pattern = 'p' :: "ositioner_moves_p".toList := by decide
  rw [e]
  rw [List.nil_append] at h
  rw [h]
  simp [List.intercalate]

/-- **C128** Petals found in the database: among the tables, those named `positioner_moves_p` and a text that is a number below 20, in the
order of the tables; tables without `positioner_moves_p` in the name and texts that are no number give nothing. -/
theorem C128_petals (int : PyStr → Option ℤ) (items : List (PyStr ⊕ PyStr))
    (hother : ∀ t, Sum.inl t ∈ items → ¬ "positioner_moves_p".toList <:+: t) (hnum : ∀ s, Sum.inr s ∈ items → 'p' ∉ s) :
    petalIds int (items.map (Sum.elim id fun s => "positioner_moves_p".toList ++ s)) =
      items.filterMap (Sum.elim (fun _ => none) fun s => (int s).filter fun i => i < 20) := by
  unfold petalIds
  rw [List.filterMap_map]
  apply List.filterMap_congr
  intro it hit
  cases it with
  | inl t =>
    have : pyIn pattern t = false := by
      rw [Bool.eq_false_iff, Ne, pyIn_infix]
      exact hother t hit
    simp [petalId?, this]
  | inr s =>
    have h1 : pyIn pattern (pattern ++ s) = true := by simpa using pyIn_append [] pattern s
    have h2 := replace_pattern s (hnum s hit)
    have e : "positioner_moves_p".toList = pattern := rfl
    rw [Function.comp_apply, Sum.elim_inr, Sum.elim_inr, e, petalId?, h1, if_pos rfl, h2]
    cases int s with
    | none => rfl
    | some i => by_cases h : i < 20 <;> simp [h, Option.filter]

example : petalIds (fun s => if s = "3".toList then some 3 else none)
    ["positioner_moves_p3".toList, "positioner_moves_p3x".toList, "other".toList] = [3] :=
  C128_petals _ [Sum.inr "3".toList, Sum.inr "3x".toList, Sum.inl "other".toList]
    (by simp only [List.mem_cons, List.not_mem_nil, Sum.inl.injEq, reduceCtorEq, false_or, or_false, forall_eq]; decide)
    (by simp)

theorem loc_iff (n : ℤ) : (∃ l, Verif.Model.Dbutil.getPetalLoc n = .ok l) ↔ 0 ≤ n ∧ n ≤ 11 := by
  constructor
  · rintro ⟨l, h⟩
    by_contra hn
    have : Verif.Model.Dbutil.petalId2loc.get? n = none := by
      have : Verif.Model.Dbutil.petalId2loc =
        [(2, 7), (3, 3), (4, 0), (5, 1), (6, 2), (7, 8), (8, 4), (9, 9), (10, 5), (11, 6), (1, 0), (0, 0)] := by decide
      rw [this]
      simp only [Dict.get?]
      repeat rw [if_neg (by omega)]
    rw [Verif.Model.Dbutil.getPetalLoc, this] at h
    cases h
  · rintro ⟨h0, h1⟩
    interval_cases n <;> exact ⟨_, rfl⟩

theorem loc_error (n : ℤ) (e : PyErr) (h : Verif.Model.Dbutil.getPetalLoc n = .error e) : e = .keyError := by
  unfold Verif.Model.Dbutil.getPetalLoc at h
  split at h
  · cases h
  · cases h; rfl

theorem locs_error (l : List ℤ) (n : ℤ) (hn : n ∈ l) (h : n < 0 ∨ 11 < n) :
    l.mapM Verif.Model.Dbutil.getPetalLoc = .error .keyError := by
  induction l with
  | nil => simp at hn
  | cons a t ih =>
    rw [List.mapM_cons]
    cases ha : Verif.Model.Dbutil.getPetalLoc a with
    | error e => rw [loc_error a e ha]; rfl
    | ok v =>
      have : n ∈ t := by
        rcases List.mem_cons.1 hn with rfl | h'
        · have := (loc_iff n).1 ⟨v, ha⟩
          omega
        · exact h'
      rw [ih this]
      rfl

/-- **C128** (finding) Petals up to 19 are taken from the database, but locations are known for 0 to 11 only: a table of another petal,
such as `positioner_moves_p12`, makes `check_moving` end with KeyError, whatever the other tables are. -/
theorem C128_unknown_petal (int : PyStr → Option ℤ) (tables : List PyStr) (s : PyStr) (n : ℤ) (hs : 'p' ∉ s) (hn : int s = some n)
    (h20 : n < 20) (hu : n < 0 ∨ 11 < n) (ht : "positioner_moves_p".toList ++ s ∈ tables) :
    petalLocs int tables = .error .keyError := by
  apply locs_error _ n _ hu
  unfold petalIds
  rw [List.mem_filterMap]
  refine ⟨_, ht, ?_⟩
  have e : "positioner_moves_p".toList = pattern := rfl
  have h1 : pyIn pattern (pattern ++ s) = true := by simpa using pyIn_append [] pattern s
  rw [petalId?, e, h1, if_pos rfl, replace_pattern s hs, hn]
  simp [h20]

example : petalLocs (fun s => if s = "12".toList then some 12 else none)
    ["positioner_moves_p12".toList, "other".toList] = .error .keyError :=
  C128_unknown_petal _ _ "12".toList 12 (by decide) (by decide) (by decide) (by decide) (by decide)

theorem dico_fold (spots : List (Spot σ)) : dico spots =
    (spots.zipIdx.map fun p => (spotIdentifier p.1, p.2)).foldl (fun (d : Dict ℤ ℕ) p => d.set p.1 p.2) [] := by
  rw [List.foldl_map]
  rfl

theorem dico_get (spots : List (Spot σ)) (k : ℤ) :
    ((dico spots).get? k).bind (fun j => spots[j]?) = spots.reverse.find? fun s => spotIdentifier s = k := by
  rw [dico_fold, get_fold, ← List.map_reverse, List.find?_map]
  have hz : ∀ p ∈ spots.zipIdx.reverse, spots[p.2]? = some p.1 := by
    intro p hp
    exact List.mem_zipIdx_iff_getElem?.1 (List.mem_reverse.1 hp)
  have hr : spots.reverse = spots.zipIdx.reverse.map Prod.fst := by
    rw [List.map_reverse]
    congr 1
    exact (List.zipIdx_map_fst 0 spots).symm
  rw [hr, List.find?_map]
  have hc : ((fun p : ℤ × ℕ => decide (p.1 = k)) ∘ fun p : Spot σ × ℕ => (spotIdentifier p.1, p.2)) =
      ((fun s : Spot σ => decide (spotIdentifier s = k)) ∘ Prod.fst) := rfl
  rw [hc]
  cases hf : spots.zipIdx.reverse.find? ((fun s : Spot σ => decide (spotIdentifier s = k)) ∘ Prod.fst) with
  | none => simp [Dict.get?]
  | some p =>
    have := hz p (List.mem_of_find?_eq_some hf)
    simp [this]

theorem dico_lt (spots : List (Spot σ)) (k : ℤ) (j : ℕ) (h : (dico spots).get? k = some j) : ∃ s, spots[j]? = some s := by
  rw [dico_fold, get_fold] at h
  simp only [Dict.get?, Option.or_none, Option.map_eq_some_iff] at h
  obtain ⟨p, hp, rfl⟩ := h
  have := List.mem_reverse.1 (List.mem_of_find?_eq_some hp)
  obtain ⟨q, hq, rfl⟩ := List.mem_map.1 this
  exact ⟨q.1, List.mem_zipIdx_iff_getElem?.1 hq⟩

theorem rows_eq (spots : List (Spot σ)) (pins : List Pin) (l : List (Pin × ℕ)) (h : ∀ p ∈ l, pins[p.2]? = some p.1) :
    rowsOf spots pins (l.filterMap fun p => ((dico spots).get? (pinIdentifier p.1)).map fun j => (j, p.2)) =
      .ok (l.filterMap fun p => (spots.reverse.find? fun s => spotIdentifier s = pinIdentifier p.1).map fun s => (s, p.1.x, p.1.y)) := by
  induction l with
  | nil => rfl
  | cons p t ih =>
    have ih := ih fun q hq => h q (by simp [hq])
    have hd := dico_get spots (pinIdentifier p.1)
    rw [List.filterMap_cons, List.filterMap_cons, ← hd]
    cases hg : (dico spots).get? (pinIdentifier p.1) with
    | none => simpa using ih
    | some j =>
      obtain ⟨s, hs⟩ := dico_lt spots _ j hg
      simp only [Option.map_some, Option.bind_some, hs]
      unfold rowsOf at ih ⊢
      rw [List.mapM_cons, ih]
      simp only [hs, h p (by simp)]
      rfl

/-- The number of a pinhole in the table of pinholes. -/
theorem dotid_iff (pin d : ℤ) (hd : 1 ≤ d ∧ d ≤ 4) : dotid pin = d ↔ pin = 256 * d + 3 := by
  unfold dotid
  dsimp only
  split_ifs <;> omega

theorem dotid_range (pin : ℤ) : 0 ≤ dotid pin ∧ dotid pin ≤ 4 := by
  unfold dotid
  dsimp only
  split_ifs <;> omega

theorem key_iff (s : Spot σ) (p : Pin) (hs : 1 ≤ s.dot ∧ s.dot ≤ 4) :
    spotIdentifier s = pinIdentifier p ↔ p.fid = 1000 * s.petal + s.dev ∧ p.pin = 256 * s.dot + 3 := by
  have h := dotid_range p.pin
  have h' := dotid_iff p.pin s.dot hs
  unfold spotIdentifier pinIdentifier
  rw [← h']
  constructor
  · intro e
    constructor <;> omega
  · rintro ⟨e1, e2⟩
    omega

/-- **C128** Import of pinhole references, for a metrology with dots 1 to 4: for each pinhole in order, the last row of the metrology of the
fiducial with this petal and device, and the dot `d` with `256*d + 3` the number of the pinhole; the pixel coordinates are those of the
pinhole. Pinholes without such a row are left out. -/
theorem C128_import (columns : List PyStr)
    (hc : "Petal ID".toList ∈ columns ∧ "Device Loc ID".toList ∈ columns ∧ "DOTID".toList ∈ columns)
    (spots : List (Spot σ)) (pins : List Pin) (hs : ∀ s ∈ spots, 1 ≤ s.dot ∧ s.dot ≤ 4) :
    importPinholes columns spots pins = .ok (pins.filterMap fun p =>
      (spots.reverse.find? fun s => p.fid = 1000 * s.petal + s.dev ∧ p.pin = 256 * s.dot + 3).map fun s => (s, p.x, p.y)) := by
  have hk : (columns.contains "Petal ID".toList && columns.contains "Device Loc ID".toList && columns.contains "DOTID".toList) = true := by
    simp only [Bool.and_eq_true, List.contains_iff_mem]
    exact ⟨⟨hc.1, hc.2.1⟩, hc.2.2⟩
  unfold importPinholes indices
  rw [if_pos hk, rows_eq spots pins pins.zipIdx fun p hp => List.mem_zipIdx_iff_getElem?.1 hp]
  congr 1
  have e : pins = pins.zipIdx.map Prod.fst := (List.zipIdx_map_fst 0 pins).symm
  conv_rhs => rw [e]
  rw [List.filterMap_map]
  apply List.filterMap_congr
  intro p _
  have : ∀ l : List (Spot σ), (∀ s ∈ l, 1 ≤ s.dot ∧ s.dot ≤ 4) →
      (l.find? fun s => spotIdentifier s = pinIdentifier p.1) =
        l.find? fun s => p.1.fid = 1000 * s.petal + s.dev ∧ p.1.pin = 256 * s.dot + 3 := by
    intro l hl
    induction l with
    | nil => rfl
    | cons s t ih =>
      have h1 := key_iff s p.1 (hl s (by simp))
      rw [List.find?_cons, List.find?_cons, ih fun s hs => hl s (by simp [hs])]
      simp only [h1]
  rw [this _ fun s h => hs s (List.mem_reverse.1 h)]
  rfl

example : ∃ out, importPinholes ["Petal ID".toList, "Device Loc ID".toList, "DOTID".toList]
    [(⟨3, 541, 2, ()⟩ : Spot Unit)] [⟨3541, 515, 1, 2⟩, ⟨3541, 7, 3, 4⟩] = .ok out ∧ out.length = 1 := by
  refine ⟨_, C128_import _ (by decide) _ _ (by simp), ?_⟩
  simp

/-- **C128** (finding) The metrology file in the repository has no column `Petal ID`: the script ends with KeyError for it. -/
theorem C128_columns (spots : List (Spot σ)) (pins : List Pin) :
    importPinholes metrologyColumns spots pins = .error .keyError := by
  have : metrologyColumns.contains "Petal ID".toList = false := by decide
  unfold importPinholes
  rw [this]
  rfl

end Verif.Props.DbQuery
