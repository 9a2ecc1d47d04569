import Verif.Model.FvcResiduals
import Verif.Props.PetalTest
import Verif.Props.RayRun
import Mathlib.Analysis.SpecialFunctions.Pow.Real
import Mathlib.Data.Finset.Card
import Mathlib.Tactic.FieldSimp

/-!
# Properties of the residuals of the spots of an image (`bin/plot_fvc_residuals`)
-/

set_option linter.unusedSectionVars false
set_option linter.unusedSimpArgs false

namespace Verif.Props.FvcResiduals

open Verif.Py Verif.Model.FvcResiduals

/-! ## Specification -/

/-- A spot is compared with the reference `f`: it has a location and a reference. -/
def Compared (f : Spot → ℝ × ℝ) (s : Spot) : Prop := 0 < s.location ∧ (f s).1 ≠ 0

/-- A residual is large: more than 0.1 mm in x or in y. -/
def IsLarge (d : ℝ × ℝ) : Prop := 0.1 < |d.1| ∨ 0.1 < |d.2|

/-- The column to compare with. -/
def refOf (expected : Bool) : Spot → ℝ × ℝ := if expected then Spot.expected else Spot.metro

/-- The line of a spot: its own device, position and residual. -/
def ownLine (f : Spot → ℝ × ℝ) (s : Spot) : Line := ⟨s.deviceId, s.pos, ((f s).1 - s.pos.1, (f s).2 - s.pos.2)⟩

/-- The spots of a table with a large residual. -/
noncomputable def largeSpots (f : Spot → ℝ × ℝ) (table : List Spot) : List Spot :=
  table.filter fun s => @decide (Compared f s ∧ IsLarge ((f s).1 - s.pos.1, (f s).2 - s.pos.2)) (Classical.dec _)

/-! ## Selection -/

theorem reference_eq (e : Bool) (s : Spot) : reference e s = refOf e s := by
  unfold reference refOf
  cases e <;> rfl

theorem chosen_iff (e : Bool) (s : Spot) : chosen e s = true ↔ Compared (refOf e) s := by
  unfold chosen Compared
  rw [@decide_eq_true_iff _ (Classical.dec _), reference_eq]

theorem large_iff (d : ℝ × ℝ) : large d = true ↔ IsLarge d := by
  unfold large IsLarge
  rw [@decide_eq_true_iff _ (Classical.dec _)]

theorem item_some {α : Type} {l : List α} {i : ℕ} {a : α} (h : l[i]? = some a) : item l i = .ok a := by
  unfold item; rw [h]

theorem item_none {α : Type} {l : List α} {i : ℕ} (h : l[i]? = none) : item l i = .error .indexError := by
  unfold item; rw [h]

/-- **C115** The script ends with the code 12 exactly when no spot has a location and a reference
position. -/
theorem C115_exit (e : Bool) (table : List Spot) (coord posids : Option (List PyStr)) :
    run e table coord posids = .error (.sysExit 12) ↔ ∀ s ∈ table, ¬ Compared (refOf e) s := by
  have hnil : table.filter (chosen e) = [] ↔ ∀ s ∈ table, ¬ Compared (refOf e) s := by
    rw [List.filter_eq_nil_iff]
    exact forall₂_congr fun s _ => by rw [chosen_iff]
  rw [← hnil]
  constructor
  · intro h
    by_contra hne
    unfold run at h
    dsimp only at h
    rw [if_neg hne] at h
    generalize hrep : report table (rowsOf e table coord posids) ((table.filter (chosen e)).map (resid e)) = rep at h
    cases rep with
    | ok l => cases h
    | error err =>
      have he : err = .sysExit 12 := by
        have : (Except.error err : Except PyErr Printed) = .error (.sysExit 12) := h
        exact Except.error.inj this
      subst he
      unfold report at hrep
      dsimp only at hrep
      split at hrep
      · cases hrep
      · generalize hl : List.mapM (line table (rowsOf e table coord posids)) _ = m at hrep
        cases m with
        | ok l => cases hrep
        | error err =>
          have h1 : err = .sysExit 12 := Except.error.inj hrep
          subst h1
          obtain ⟨q, _, hq⟩ := mapM_fails hl
          exact line_error hq
  · intro h
    unfold run
    dsimp only
    rw [if_pos h]
where
  mapM_fails {α β : Type} {f : α → Except PyErr β} {l : List α} {err : PyErr} (h : l.mapM f = .error err) :
      ∃ q ∈ l, f q = .error err := by
    induction l with
    | nil => cases h
    | cons a l ih =>
      rw [List.mapM_cons] at h
      generalize hfa : f a = v at h
      cases v with
      | error e' =>
        have : e' = err := Except.error.inj h
        exact ⟨a, by simp, by rw [hfa, this]⟩
      | ok b =>
        generalize hm : l.mapM f = m at h
        cases m with
        | error e' =>
          have : e' = err := Except.error.inj h
          subst this
          obtain ⟨q, hq, h2⟩ := ih hm
          exact ⟨q, List.mem_cons_of_mem _ hq, h2⟩
        | ok t => cases h
  line_error {table : List Spot} {ii : List ℕ} {q : (ℝ × ℝ) × ℕ} (h : line table ii q = .error (.sysExit 12)) : False := by
    unfold line at h
    cases h1 : ii[q.2]? with
    | none => rw [item_none h1] at h; cases h
    | some i =>
      rw [item_some h1] at h
      change (item table i >>= _) = _ at h
      cases h2 : table[i]? with
      | none => rw [item_none h2] at h; cases h
      | some s => rw [item_some h2] at h; cases h

/-! ## The lines of the large residuals -/

theorem whereOf_get {α : Type} (p : α → Bool) (l : List α) :
    List.Forall₂ (fun i a => l[i]? = some a) (whereOf p l) (l.filter p) := by
  have gen : ∀ (m : List (α × ℕ)) (_ : ∀ q ∈ m, l[q.2]? = some q.1),
      List.Forall₂ (fun i a => l[i]? = some a) ((m.filter fun q => p q.1).map Prod.snd) ((m.map Prod.fst).filter p) := by
    intro m
    induction m with
    | nil => intro _; exact .nil
    | cons q m ih =>
      intro h
      have ih := ih fun x hx => h x (List.mem_cons_of_mem _ hx)
      rw [List.map_cons, List.filter_cons, List.filter_cons]
      cases hp : p q.1 with
      | true => simp only [if_true, List.map_cons]; exact .cons (h q (by simp)) ih
      | false => simpa using ih
  have h := gen l.zipIdx fun q hq => List.mem_zipIdx_iff_getElem?.1 hq
  rw [List.zipIdx_map_fst] at h
  exact h

theorem whereOf_item {α : Type} (p : α → Bool) (l : List α) (j : ℕ) (a : α) (h : (l.filter p)[j]? = some a) :
    ∃ i, (whereOf p l)[j]? = some i ∧ l[i]? = some a := by
  have hf := whereOf_get p l
  generalize whereOf p l = w, l.filter p = f at hf h
  induction hf generalizing j with
  | nil => simp at h
  | cons h1 _ ih =>
    cases j with
    | zero => simp only [List.getElem?_cons_zero, Option.some.injEq] at h; subst h; exact ⟨_, rfl, h1⟩
    | succ j => simp only [List.getElem?_cons_succ] at h ⊢; exact ih j h

/-- The loop over the large residuals when `ii` holds the rows of the selected spots. -/
theorem lines_own (e : Bool) (table : List Spot) :
    ((((table.filter (chosen e)).map (resid e)).zipIdx.filter fun q => large q.1).mapM
      (line table (whereOf (chosen e) table))) = .ok ((largeSpots (refOf e) table).map (ownLine (refOf e))) := by
  rw [RayRun.mapM_iff]
  have hsel : largeSpots (refOf e) table = (table.filter (chosen e)).filter fun s => large (resid e s) := by
    unfold largeSpots
    rw [List.filter_filter]
    apply List.filter_congr
    intro s _
    rw [Bool.eq_iff_iff, @decide_eq_true_iff _ (Classical.dec _), Bool.and_eq_true, chosen_iff, large_iff]
    unfold resid
    rw [reference_eq]
    tauto
  rw [hsel]
  have hq : ∀ q ∈ ((table.filter (chosen e)).zipIdx), line table (whereOf (chosen e) table) (resid e q.1, q.2) = .ok (ownLine (refOf e) q.1) := by
    intro q hq
    obtain ⟨i, hi, ha⟩ := whereOf_item (chosen e) table q.2 q.1 (List.mem_zipIdx_iff_getElem?.1 hq)
    unfold line
    dsimp only
    rw [item_some hi]
    change (item table i >>= _) = _
    rw [item_some ha]
    unfold resid ownLine
    rw [reference_eq]
    rfl
  have gen : ∀ (m : List (Spot × ℕ)) (_ : ∀ q ∈ m, line table (whereOf (chosen e) table) (resid e q.1, q.2) = .ok (ownLine (refOf e) q.1)),
      List.Forall₂ (fun a b => line table (whereOf (chosen e) table) a = .ok b)
        ((m.map fun q => (resid e q.1, q.2)).filter fun q => large q.1)
        (((m.map Prod.fst).filter fun s => large (resid e s)).map (ownLine (refOf e))) := by
    intro m
    induction m with
    | nil => intro _; exact .nil
    | cons q m ih =>
      intro h
      have ih := ih fun x hx => h x (List.mem_cons_of_mem _ hx)
      rw [List.map_cons, List.map_cons, List.filter_cons, List.filter_cons]
      cases hp : large (resid e q.1) with
      | true => simp only [hp, if_true, List.map_cons]; exact .cons (h q (by simp)) ih
      | false => simpa [hp] using ih
  have h := gen _ hq
  rw [List.zipIdx_map_fst] at h
  rw [List.zipIdx_map]
  exact h

theorem zip_filter_length (d : List (ℝ × ℝ)) :
    (d.zipIdx.filter fun q => large q.1).length = (d.filter large).length := by
  have h := List.zipIdx_map_fst 0 d
  conv_rhs => rw [← h]
  rw [List.filter_map, List.length_map]
  rfl

theorem jj_length (e : Bool) (table : List Spot) :
    (((table.filter (chosen e)).map (resid e)).zipIdx.filter fun q => large q.1).length = (largeSpots (refOf e) table).length := by
  rw [zip_filter_length, List.filter_map, List.length_map, List.filter_filter]
  unfold largeSpots
  congr 1
  apply List.filter_congr
  intro s _
  rw [Bool.eq_iff_iff, @decide_eq_true_iff _ (Classical.dec _), Bool.and_eq_true, chosen_iff, Function.comp_apply, large_iff]
  unfold resid
  rw [reference_eq]
  tauto

/-- **C115** Without a coordinates file together with positioners to highlight, the lines which are
printed are those of the spots with a large residual, in the order of the table, each with its own
device, position and residual; with more than 100 of them only their number is printed. -/
theorem C115_lines (e : Bool) (table : List Spot) (coord posids : Option (List PyStr)) (hs : ∃ s ∈ table, Compared (refOf e) s)
    (h : e = false ∨ coord = none ∨ posids = none) :
    ∃ p, run e table coord posids = .ok p ∧
      ((largeSpots (refOf e) table).length ≤ 100 → p.large = .lines ((largeSpots (refOf e) table).map (ownLine (refOf e)))) ∧
      (100 < (largeSpots (refOf e) table).length → p.large = .many (largeSpots (refOf e) table).length) := by
  have hne : table.filter (chosen e) ≠ [] := by
    obtain ⟨s, hs, hc⟩ := hs
    exact List.ne_nil_of_mem (List.mem_filter.2 ⟨hs, (chosen_iff e s).2 hc⟩)
  have hrows : rowsOf e table coord posids = whereOf (chosen e) table := by
    unfold rowsOf
    dsimp only
    rcases h with rfl | rfl | rfl
    · rfl
    · cases e <;> rfl
    · cases e <;> cases coord <;> rfl
  unfold run
  dsimp only
  rw [if_neg hne, hrows]
  unfold report
  dsimp only
  by_cases hn : 100 < (largeSpots (refOf e) table).length
  · rw [if_pos (by rw [jj_length]; exact hn), jj_length]
    exact ⟨_, rfl, fun h => absurd h (by omega), fun _ => rfl⟩
  · rw [if_neg (by rw [jj_length]; exact hn), lines_own]
    exact ⟨_, rfl, fun _ => rfl, fun h => absurd h hn⟩

/-- **C115** A spot is printed only when it has a location, a reference, and a residual above 0.1 mm in x or in y. -/
theorem C115_large (f : Spot → ℝ × ℝ) (table : List Spot) (s : Spot) :
    s ∈ largeSpots f table ↔ s ∈ table ∧ 0 < s.location ∧ (f s).1 ≠ 0 ∧ (0.1 < |(f s).1 - s.pos.1| ∨ 0.1 < |(f s).2 - s.pos.2|) := by
  unfold largeSpots
  rw [List.mem_filter, @decide_eq_true_iff _ (Classical.dec _)]
  unfold Compared IsLarge
  tauto

theorem foldl_last (ids : List PyStr) (c : List PyStr) (p : PyStr) (h : ids.getLast? = some p) (ii : List ℕ) :
    ids.foldl (fun _ p => whereOf (fun q => decide (q = p)) c) ii = whereOf (fun q => decide (q = p)) c := by
  obtain ⟨ys, rfl⟩ := List.getLast?_eq_some_iff.1 h
  rw [List.foldl_append]
  rfl

/-- **C115** (finding) With the expected positions, a coordinates file and positioners to highlight of
which the last is not in this file, the script ends with an `IndexError` when there is a large residual. -/
theorem C115_posid_missing (table : List Spot) (c ids : List PyStr) (p : PyStr) (hp : ids.getLast? = some p) (hc : p ∉ c)
    (hl : largeSpots Spot.expected table ≠ []) (hn : (largeSpots Spot.expected table).length ≤ 100) :
    run true table (some c) (some ids) = .error .indexError := by
  have hrows : rowsOf true table (some c) (some ids) = [] := by
    unfold rowsOf
    dsimp only
    rw [foldl_last ids c p hp]
    unfold whereOf
    rw [List.filter_eq_nil_iff.2, List.map_nil]
    intro q hq
    rw [decide_eq_true_iff]
    intro h
    obtain ⟨i, hi⟩ : ∃ i : ℕ, c[i]? = some q.1 := ⟨q.2, List.mem_zipIdx_iff_getElem?.1 hq⟩
    exact hc (h ▸ List.mem_of_getElem? hi)
  have hlen := jj_length true table
  have href : refOf true = Spot.expected := rfl
  rw [href] at hlen
  have hne : table.filter (chosen true) ≠ [] := by
    obtain ⟨s, hs⟩ := List.exists_mem_of_ne_nil _ hl
    have := (C115_large _ _ _).1 hs
    exact List.ne_nil_of_mem (List.mem_filter.2 ⟨this.1, (chosen_iff true s).2 ⟨this.2.1, this.2.2.1⟩⟩)
  unfold run
  dsimp only
  rw [if_neg hne, hrows]
  unfold report
  dsimp only
  rw [if_neg (by rw [hlen]; omega)]
  have hpos := List.length_pos_iff.2 hl
  generalize (((table.filter (chosen true)).map (resid true)).zipIdx.filter fun q => large q.1) = jj at hlen
  cases jj with
  | nil => rw [← hlen] at hpos; simp at hpos
  | cons q jj => rfl

/-- **C115** (finding) The same command prints another spot with the residual: here the device and
the position of the second spot with the residual of the first. -/
theorem C115_wrong_spot : ∃ (table : List Spot) (c ids : List PyStr) (p : Printed) (a b : Spot), table = [a, b] ∧ a.deviceId ≠ b.deviceId ∧
    largeSpots Spot.expected table = [a] ∧ run true table (some c) (some ids) = .ok p ∧
      p.large = .lines [⟨b.deviceId, b.pos, (1, 0)⟩] ∧ ownLine Spot.expected a = ⟨a.deviceId, a.pos, (1, 0)⟩ := by
  refine ⟨[⟨1, 0, "M1".toList, (10, 0), (11, 0), (11, 0)⟩, ⟨2, 0, "M2".toList, (20, 0), (20, 0), (20, 0)⟩], ["M2".toList, "M1".toList], ["M1".toList], ?_⟩
  set a : Spot := ⟨1, 0, "M1".toList, (10, 0), (11, 0), (11, 0)⟩ with ha
  set b : Spot := ⟨2, 0, "M2".toList, (20, 0), (20, 0), (20, 0)⟩ with hb
  have ca : chosen true a = true := (chosen_iff _ _).2 ⟨by decide, by change (11:ℝ) ≠ 0; norm_num⟩
  have cb : chosen true b = true := (chosen_iff _ _).2 ⟨by decide, by change (20:ℝ) ≠ 0; norm_num⟩
  have hsel : [a, b].filter (chosen true) = [a, b] := by
    rw [List.filter_cons_of_pos ca, List.filter_cons_of_pos cb]; rfl
  have ra : resid true a = (1, 0) := by unfold resid reference; norm_num [ha]
  have rb : resid true b = (0, 0) := by unfold resid reference; norm_num [hb]
  have la : large (1, 0) = true := (large_iff _).2 (Or.inl (by norm_num))
  have lb : large (0, 0) = false := by
    rw [Bool.eq_false_iff, Ne, large_iff]
    unfold IsLarge
    norm_num
  have hjj : ([a, b].map (resid true)).zipIdx.filter (fun q => large q.1) = [((1, 0), 0)] := by
    rw [List.map_cons, List.map_cons, List.map_nil, ra, rb]
    simp only [List.zipIdx_cons, List.zipIdx_nil]
    rw [List.filter_cons_of_pos (by exact la), List.filter_cons_of_neg (by rw [lb]; simp)]
    rfl
  have hlargeSpots : largeSpots Spot.expected [a, b] = [a] := by
    unfold largeSpots
    rw [List.filter_cons_of_pos, List.filter_cons_of_neg]
    · rfl
    · rw [@decide_eq_true_iff _ (Classical.dec _)]
      unfold IsLarge
      simp only [hb]
      norm_num
    · rw [@decide_eq_true_iff _ (Classical.dec _)]
      refine ⟨(chosen_iff true a).1 ca, Or.inl ?_⟩
      simp only [ha]
      norm_num
  have hrows : rowsOf true [a, b] (some ["M2".toList, "M1".toList]) (some ["M1".toList]) = [1] := by
    unfold rowsOf
    dsimp only
    rw [foldl_last _ _ "M1".toList rfl]
    decide
  have hrun : run true [a, b] (some ["M2".toList, "M1".toList]) (some ["M1".toList]) =
      .ok ⟨fiducials [a, b], .lines [⟨b.deviceId, b.pos, (1, 0)⟩], rms ([a, b].map (resid true)) 0.2, rms ([a, b].map (resid true)) 6⟩ := by
    unfold run
    dsimp only
    rw [hsel, if_neg (by simp), hrows]
    unfold report
    dsimp only
    rw [hjj]
    rfl
  refine ⟨_, a, b, rfl, by simp only [ha, hb]; decide, hlargeSpots, hrun, rfl, ?_⟩
  unfold ownLine
  simp only [ha]
  norm_num

/-! ## Counts -/

/-- **C115** The number of fiducials is the number of different locations of spots of pinholes with an expected position. -/
theorem C115_fiducials (table : List Spot) :
    (fiducials table : ℕ) = Set.ncard {l : ℤ | ∃ s ∈ table, s.location = l ∧ 0 ≤ s.location ∧ s.expected.1 ≠ 0 ∧ 0 < s.pinhole} := by
  have h : {l : ℤ | ∃ s ∈ table, s.location = l ∧ 0 ≤ s.location ∧ s.expected.1 ≠ 0 ∧ 0 < s.pinhole} =
      (((table.filter fun s => @decide (s.location ≥ 0 ∧ s.expected.1 ≠ 0 ∧ s.pinhole > 0) (Classical.dec _)).map
    Spot.location).toFinset : Set ℤ) := by
    ext l
    simp only [Set.mem_ofPred_eq, List.coe_toFinset, List.mem_map, List.mem_filter, @decide_eq_true_iff _ (Classical.dec _)]
    constructor
    · rintro ⟨s, hs, rfl, h1, h2, h3⟩; exact ⟨s, ⟨hs, h1, h2, h3⟩, rfl⟩
    · rintro ⟨s, ⟨hs, h1, h2, h3⟩, rfl⟩; exact ⟨s, hs, rfl, h1, h2, h3⟩
  rw [h, Set.ncard_coe_finset, List.card_toFinset]
  rfl

/-- **C115** Each positioner of the metrology outside of petal 5 is either among the matched or among the unmatched. -/
theorem C115_matched (metro : List MetroRow) (table : List Spot) (m : MetroRow) :
    (m ∈ matched metro table ↔ (m ∈ metro ∧ m.petal ≠ 5 ∧ m.deviceType = "POS".toList) ∧ ∃ s ∈ table, s.location = m.location) ∧
    (m ∈ unmatched metro table ↔ (m ∈ metro ∧ m.petal ≠ 5 ∧ m.deviceType = "POS".toList) ∧ ¬ ∃ s ∈ table, s.location = m.location) := by
  unfold matched unmatched
  generalize "POS".toList = k
  simp only [List.mem_filter, Bool.and_eq_true, decide_eq_true_iff, Bool.not_eq_true', decide_eq_false_iff_not, List.mem_map]
  constructor <;> tauto

/-- **C115** The two numbers which are printed add up to the number of positioners. -/
theorem C115_matched_sum (metro : List MetroRow) (table : List Spot) :
    (matched metro table).length + (unmatched metro table).length =
      (metro.filter fun m => decide (m.petal ≠ 5 ∧ m.deviceType = "POS".toList)).length := by
  unfold matched unmatched
  generalize "POS".toList = k
  induction metro with
  | nil => rfl
  | cons m metro ih =>
    simp only [ne_eq] at ih ⊢
    by_cases h5 : m.petal = 5
    · simp only [List.filter_cons, h5, ne_eq, not_true_eq_false, decide_false, false_and, Bool.false_eq_true, if_false]
      exact ih
    · by_cases hk : m.deviceType = k
      · by_cases hl : m.location ∈ table.map Spot.location
        · simp only [List.filter_cons, h5, hk, hl, ne_eq, not_false_eq_true, decide_true, true_and, if_true, Bool.and_true,
            Bool.not_true, Bool.and_false, Bool.false_eq_true, if_false, List.length_cons]
          omega
        · simp only [List.filter_cons, h5, hk, hl, ne_eq, not_false_eq_true, decide_true, decide_false, true_and, if_true, Bool.and_true,
            Bool.not_false, Bool.and_false, Bool.false_eq_true, if_false, List.length_cons]
          omega
      · simp only [List.filter_cons, h5, hk, ne_eq, not_false_eq_true, decide_true, decide_false, and_false, true_and, if_true,
          Bool.and_false, Bool.false_eq_true, if_false]
        exact ih

/-! ## The rms -/

theorem rms_some (d : List (ℝ × ℝ)) (m : ℝ) : (∃ v, rms d m = some v) ↔ ∃ x ∈ d, len x < m := by
  unfold rms
  dsimp only
  constructor
  · rintro ⟨v, hv⟩
    split at hv
    · cases hv
    · next hne =>
      obtain ⟨y, hy⟩ := List.exists_mem_of_ne_nil _ hne
      obtain ⟨h1, h2⟩ := List.mem_filter.1 hy
      obtain ⟨x, hx, rfl⟩ := List.mem_map.1 h1
      exact ⟨x, hx, (@decide_eq_true_iff _ (Classical.dec _)).1 h2⟩
  · rintro ⟨x, hx, hl⟩
    rw [if_neg (List.ne_nil_of_mem (List.mem_filter.2 ⟨List.mem_map.2 ⟨x, hx, rfl⟩, (@decide_eq_true_iff _ (Classical.dec _)).2 hl⟩))]
    exact ⟨_, rfl⟩

theorem sum_lt (l : List ℝ) (m : ℝ) (hl : l ≠ []) (h : ∀ x ∈ l, 0 ≤ x ∧ x < m) : (l.map (· ^ 2)).sum < (l.length : ℝ) * m ^ 2 := by
  induction l with
  | nil => exact absurd rfl hl
  | cons a l ih =>
    have ha := h a (by simp)
    have ha2 : a ^ 2 < m ^ 2 := by nlinarith
    rw [List.map_cons, List.sum_cons, List.length_cons]
    push_cast
    rcases eq_or_ne l [] with rfl | hne
    · simpa using ha2
    · have := ih hne fun x hx => h x (List.mem_cons_of_mem _ hx)
      linarith

/-- **C115** The rms of the residuals shorter than a limit is below the limit; so the first is always
below 200 µm and the one labelled "all" below 6 mm. -/
theorem C115_rms_lt (d : List (ℝ × ℝ)) (m v : ℝ) (hm : 0 < m) (h : rms d m = some v) : 0 ≤ v ∧ v < m := by
  unfold rms at h
  dsimp only at h
  split at h
  · cases h
  · next hne =>
    have := Option.some.inj h
    subst this
    refine ⟨Real.sqrt_nonneg _, ?_⟩
    rw [Real.sqrt_lt' hm, div_lt_iff₀ (by exact_mod_cast List.length_pos_iff.2 hne), mul_comm]
    refine sum_lt _ _ hne fun x hx => ?_
    obtain ⟨h1, h2⟩ := List.mem_filter.1 hx
    obtain ⟨y, _, rfl⟩ := List.mem_map.1 h1
    exact ⟨Real.sqrt_nonneg _, (@decide_eq_true_iff _ (Classical.dec _)).1 h2⟩

/-- **C115** (finding) A residual of 6 mm or more changes nothing in the rms labelled "all". -/
theorem C115_all (a b : List (ℝ × ℝ)) (x : ℝ × ℝ) (h : 6 ≤ Real.sqrt (x.1 ^ 2 + x.2 ^ 2)) : rms (a ++ x :: b) 6 = rms (a ++ b) 6 := by
  unfold rms
  rw [List.map_append, List.map_append, List.map_cons, List.filter_append, List.filter_append, List.filter_cons_of_neg]
  rw [@decide_eq_true_iff _ (Classical.dec _)]
  unfold len
  linarith

/-- The mean of the values below a limit is not above the one for a larger limit. -/
theorem mean_mono (l : List ℝ) (a b : ℝ) (hab : a ≤ b) (ha : 0 ≤ a) (h0 : ∀ x ∈ l, 0 ≤ x) :
    let p := l.filter fun x => @decide (x < a) (Classical.dec _)
    let q := l.filter fun x => @decide (x < b) (Classical.dec _)
    (p.map (· ^ 2)).sum * (q.length : ℝ) ≤ (q.map (· ^ 2)).sum * (p.length : ℝ) := by
  intro p q
  have h1 : (p.map (· ^ 2)).sum ≤ a ^ 2 * (p.length : ℝ) := by
    have : ∀ x ∈ p.map (· ^ 2), x ≤ a ^ 2 := by
      intro x hx
      obtain ⟨y, hy, rfl⟩ := List.mem_map.1 hx
      obtain ⟨hy1, hy2⟩ := List.mem_filter.1 hy
      have := (@decide_eq_true_iff _ (Classical.dec _)).1 hy2
      have := h0 y hy1
      nlinarith
    have := List.sum_le_card_nsmul _ _ this
    simpa [mul_comm] using this
  have h2 : (p.map (· ^ 2)).sum + a ^ 2 * ((q.length : ℝ) - p.length) ≤ (q.map (· ^ 2)).sum := by
    clear h1
    induction l with
    | nil => simp [p, q]
    | cons x l ih =>
      have ih := ih fun y hy => h0 y (List.mem_cons_of_mem _ hy)
      have hx := h0 x (by simp)
      dsimp only [p, q] at ih ⊢
      by_cases hxa : x < a
      · rw [List.filter_cons_of_pos (by rw [@decide_eq_true_iff _ (Classical.dec _)]; exact hxa),
          List.filter_cons_of_pos (by rw [@decide_eq_true_iff _ (Classical.dec _)]; exact lt_of_lt_of_le hxa hab)]
        simp only [List.map_cons, List.sum_cons, List.length_cons]
        push_cast
        linarith
      · rw [List.filter_cons_of_neg (by rw [@decide_eq_true_iff _ (Classical.dec _)]; exact hxa)]
        by_cases hxb : x < b
        · rw [List.filter_cons_of_pos (by rw [@decide_eq_true_iff _ (Classical.dec _)]; exact hxb)]
          simp only [List.map_cons, List.sum_cons, List.length_cons]
          push_cast
          have : a ^ 2 ≤ x ^ 2 := by nlinarith
          linarith
        · rw [List.filter_cons_of_neg (by rw [@decide_eq_true_iff _ (Classical.dec _)]; exact hxb)]
          exact ih
  have hlen : (p.length : ℝ) ≤ q.length := by
    have : p.length ≤ q.length := by
      apply List.Sublist.length_le
      apply List.monotone_filter_right
      intro x hx
      rw [@decide_eq_true_iff _ (Classical.dec _)] at hx ⊢
      exact lt_of_lt_of_le hx hab
    exact_mod_cast this
  have hp0 : (0:ℝ) ≤ p.length := by positivity
  nlinarith [mul_le_mul_of_nonneg_right h1 (sub_nonneg.2 hlen), mul_le_mul_of_nonneg_right h2 hp0]

/-- **C115** The rms for 200 µm is not above the one labelled "all". -/
theorem C115_rms_le (d : List (ℝ × ℝ)) (a b v w : ℝ) (ha : 0 ≤ a) (hab : a ≤ b) (hv : rms d a = some v) (hw : rms d b = some w) : v ≤ w := by
  have key := mean_mono (d.map len) a b hab ha fun x hx => by
    obtain ⟨y, _, rfl⟩ := List.mem_map.1 hx
    exact Real.sqrt_nonneg _
  unfold rms at hv hw
  dsimp only at hv hw key
  split at hv
  · cases hv
  · next hp =>
    split at hw
    · cases hw
    · next hq =>
      have h1 := Option.some.inj hv
      have h2 := Option.some.inj hw
      subst h1 h2
      apply Real.sqrt_le_sqrt
      rw [div_le_div_iff₀ (by exact_mod_cast List.length_pos_iff.2 hp) (by exact_mod_cast List.length_pos_iff.2 hq)]
      exact key

/-- **C115** The two rms are those of the residuals of the compared spots, and the first is NaN exactly
when none of these is shorter than 200 µm. -/
theorem C115_rms (e : Bool) (table : List Spot) (coord posids : Option (List PyStr)) (p : Printed)
    (h : run e table coord posids = .ok p) :
    (p.rms1 = none ↔ ∀ s ∈ table, Compared (refOf e) s → 0.2 ≤ Real.sqrt (((refOf e s).1 - s.pos.1) ^ 2 + ((refOf e s).2 - s.pos.2) ^ 2)) ∧
    (∀ v, p.rms1 = some v → 0 ≤ v ∧ v < 0.2 ∧ ∃ w, p.rms2 = some w ∧ v ≤ w ∧ w < 6) ∧
    (∀ v w, p.rms1 = some v → p.rms2 = some w → v ≤ w) := by
  unfold run at h
  dsimp only at h
  split at h
  · cases h
  · obtain ⟨l, _, hp⟩ := (RayRun.bind_iff _ _ _).1 h
    have := Except.ok.inj hp
    subst this
    dsimp only
    refine ⟨?_, ?_, fun v w hv hw => C115_rms_le _ _ _ _ _ (by norm_num) (by norm_num) hv hw⟩
    · have hs := rms_some ((table.filter (chosen e)).map (resid e)) 0.2
      constructor
      · intro hn s hs' hc
        by_contra hlt
        obtain ⟨v, hv⟩ := hs.2 ⟨resid e s, List.mem_map.2 ⟨s, List.mem_filter.2 ⟨hs', (chosen_iff e s).2 hc⟩, rfl⟩, by
          unfold len resid
          rw [reference_eq]
          linarith⟩
        rw [hv] at hn
        cases hn
      · intro hall
        cases hr : rms ((table.filter (chosen e)).map (resid e)) 0.2 with
        | none => rfl
        | some v =>
          obtain ⟨x, hx, hlt⟩ := hs.1 ⟨v, hr⟩
          obtain ⟨s, hs', rfl⟩ := List.mem_map.1 hx
          obtain ⟨h1, h2⟩ := List.mem_filter.1 hs'
          have := hall s h1 ((chosen_iff e s).1 h2)
          unfold len resid at hlt
          rw [reference_eq] at hlt
          dsimp only at hlt
          linarith
    · intro v hv
      obtain ⟨h0, h1⟩ := C115_rms_lt _ _ _ (by norm_num) hv
      obtain ⟨x, hx, hl⟩ := (rms_some _ _).1 ⟨v, hv⟩
      obtain ⟨w, hw⟩ := (rms_some _ 6).2 ⟨x, hx, by linarith⟩
      exact ⟨h0, h1, w, hw, C115_rms_le _ _ _ _ _ (by norm_num) (by norm_num) hv hw, (C115_rms_lt _ _ _ (by norm_num) hw).2⟩

/-! ## Examples -/

/-- A spot 0.5 mm from its expected position. -/
noncomputable def exS : Spot := ⟨3042, 0, "M1".toList, (10, 20), (10.5, 20), (0, 0)⟩

example : Compared (refOf true) exS := ⟨by decide, by change (10.5:ℝ) ≠ 0; norm_num⟩

example : exS ∈ largeSpots Spot.expected [exS] := by
  rw [C115_large]
  refine ⟨by simp, by decide, by change (10.5:ℝ) ≠ 0; norm_num, Or.inl ?_⟩
  change 0.1 < |(10.5:ℝ) - 10|
  norm_num [abs_of_pos]

/-- The spot without a large residual but with a rms. -/
example : ∃ v, rms [(0.1, 0)] 0.2 = some v := by
  rw [rms_some]
  refine ⟨_, List.mem_singleton.2 rfl, ?_⟩
  unfold len
  rw [Real.sqrt_lt' (by norm_num)]
  norm_num

end Verif.Props.FvcResiduals
