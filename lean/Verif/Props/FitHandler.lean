import Verif.Model.FitHandler
import Verif.Props.FitFilters
import Verif.Props.FitCases
import Verif.Lemmas.Str
import Verif.Lemmas.Pos2ptl
import Mathlib.Data.List.Dedup
import Mathlib.Data.List.MinMax
import Mathlib.Data.Nat.Bitwise
import Mathlib.Tactic.FieldSimp

namespace Verif.Props
open Verif.Py Verif.Model.FitCases Verif.Model.FitHandler

namespace Fh

/-- A run that writes one file and returns, outcome and file being related by `R`, or raises and
writes nothing. -/
def Good (path : PyStr) (R : Outcome → Content → Prop) (x : Run Outcome) : Prop := ∀ w,
  (∃ o c, x w = (.ok o, w ++ [⟨path, c⟩]) ∧ R o c) ∨ ∃ e, x w = (.error e, w)

variable {path : PyStr} {R R' : Outcome → Content → Prop}

theorem good_lift {α : Type} {x : Except PyErr α} {f : α → Run Outcome}
    (h : ∀ a, x = .ok a → Good path R (f a)) : Good path R (lift x >>= f) := by
  intro w
  show (∃ o c, Run.bind (lift x) f w = _ ∧ _) ∨ ∃ e, Run.bind (lift x) f w = _
  unfold Run.bind lift
  cases x with
  | error e => exact Or.inr ⟨e, rfl⟩
  | ok a => exact h a rfl w

theorem good_write {c : Content} {o : Outcome} (h : R o c) :
    Good path R (do write path c; return o) := fun _ => Or.inl ⟨o, c, rfl, h⟩

theorem good_mono {x : Run Outcome} (h : Good path R x) (hR : ∀ o c, R o c → R' o c) : Good path R' x := by
  intro w
  rcases h w with ⟨o, c, h1, h2⟩ | h
  · exact Or.inl ⟨o, c, h1, hR o c h2⟩
  · exact Or.inr h

theorem orAll_testBit (l : List ℕ) (i : ℕ) : (orAll l).testBit i = true ↔ ∃ f ∈ l, f.testBit i = true := by
  unfold orAll
  have : ∀ a, (l.foldl (fun a f => a ||| f) a).testBit i = true ↔ a.testBit i = true ∨ ∃ f ∈ l, f.testBit i = true := by
    induction l with
    | nil => simp
    | cons b l ih =>
      intro a
      rw [List.foldl_cons, ih]
      simp only [Nat.testBit_or, Bool.or_eq_true, List.mem_cons, exists_eq_or_imp, or_assoc]
  rw [this]; simp

theorem failed_iff (f : ℕ) : f &&& FAILED_FIT > 0 ↔ f.testBit 2 = true := by
  have : FAILED_FIT = 2 ^ 2 := rfl
  rw [this, Nat.and_two_pow]
  cases f.testBit 2 <;> simp

theorem anyFailed_iff (l : List ℕ) : anyFailed l = true ↔ ∃ f ∈ l, f.testBit 2 = true := by
  unfold anyFailed
  simp only [List.any_eq_true, decide_eq_true_eq, failed_iff]

theorem flagsOf_ok {o : OutTbl} {l : List ℕ} (h : flagsOf o = .ok l) :
    o.rows ≠ [] ∧ l = o.rows.map fun r => r.fit.flags := by
  unfold flagsOf at h
  split_ifs at h with h0
  injection h with h
  exact ⟨h0, h.symm⟩

theorem passthru_iff (rows : List Row) : (passthru rows = .ok () ↔ rows ≠ [] ∧
      ∀ x ∈ rows, ∀ y ∈ rows, x.petalId = y.petalId ∧ x.petalLoc = y.petalLoc ∧ x.deviceLoc = y.deviceLoc) ∧
    (passthru rows = .ok () ∨ passthru rows = .error .assertionError) := by
  cases rows with
  | nil => simp [passthru]
  | cons r l =>
    unfold passthru
    dsimp only
    split_ifs with h
    · refine ⟨⟨fun _ => ⟨by simp, ?_⟩, fun _ => rfl⟩, Or.inl rfl⟩
      have h' : ∀ x ∈ r :: l, x.petalId = r.petalId ∧ x.petalLoc = r.petalLoc ∧ x.deviceLoc = r.deviceLoc := by
        intro x hx
        rcases List.mem_cons.1 hx with rfl | hx
        · exact ⟨rfl, rfl, rfl⟩
        · simpa using List.all_eq_true.1 h x hx
      intro x hx y hy
      obtain ⟨a1, a2, a3⟩ := h' x hx
      obtain ⟨b1, b2, b3⟩ := h' y hy
      exact ⟨a1.trans b1.symm, a2.trans b2.symm, a3.trans b3.symm⟩
    · refine ⟨⟨fun h => (by cases h), fun h1 => absurd ?_ h⟩, Or.inr rfl⟩
      obtain ⟨-, h1⟩ := h1
      rw [List.all_eq_true]
      intro x hx
      simpa using h1 x (by simp [hx]) r (by simp)

/-- Relation between outcome and file for the two passes over the windows. -/
def passRel {N : Type} (env : Env N) (table : List Row) (cases : List Case) (known : List PyStr) (nom : N) :
    Outcome → Content → Prop
  | .fitFailed, .failed f => ∃ st, processCases env.fit .static known nom table cases = .ok st ∧
      (∃ r ∈ st.rows, r.fit.flags.testBit 2 = true) ∧
      ∀ i, f.testBit i = true ↔ ∃ r ∈ st.rows, r.fit.flags.testBit i = true
  | .done n, .merged l => n = cases.length ∧ ∃ st dy, processCases env.fit .static known nom table cases = .ok st ∧
      processCases env.fit .dynamic st.known (env.best st) table cases = .ok dy ∧ st.rows ≠ [] ∧
      (∀ r ∈ st.rows, r.fit.flags.testBit 2 = false) ∧
      (∀ x ∈ table, ∀ y ∈ table, x.petalId = y.petalId ∧ x.petalLoc = y.petalLoc ∧ x.deviceLoc = y.deviceLoc) ∧
      l = joinRows st.rows dy.rows
  | _, _ => False

theorem good_passes {N : Type} (env : Env N) (a : Args) (table : List Row) (cases : List Case) (known : List PyStr)
    (nom : N) : Good (resultPath a.savedir a.posid) (passRel env table cases known nom)
      (passes env a table cases known nom) := by
  unfold passes
  refine good_lift fun st hst => good_lift fun flags hf => ?_
  obtain ⟨hne, rfl⟩ := flagsOf_ok hf
  split_ifs with h
  · refine good_write ⟨st, hst, ?_, ?_⟩
    · obtain ⟨f, hf, hb⟩ := (anyFailed_iff _).1 h
      obtain ⟨r, hr, rfl⟩ := List.mem_map.1 hf
      exact ⟨r, hr, hb⟩
    · intro i
      rw [orAll_testBit]
      simp
  · refine good_lift fun _ _ => good_lift fun dy hdy => good_lift fun _ hpt =>
      good_write ⟨rfl, st, dy, hst, hdy, hne, ?_, ((passthru_iff table).1.1 hpt).2, rfl⟩
    intro r hr
    by_contra hcon
    exact h ((anyFailed_iff _).2 ⟨r.fit.flags, List.mem_map.2 ⟨r, hr, rfl⟩, by simpa using hcon⟩)

/-- Relation between outcome and file after the filters. -/
def fitsRel {N : Type} (env : Env N) (a : Args) (table : List Row) (datum : List ℝ) (cases : List Case) :
    Outcome → Content → Prop
  | .tooFewRehomed, .failed f => f = 16 ∧ (∃ r ∈ table, r.rehome = 0) ∧ (table.filter fun r => r.rehome > 0).length < 10
  | .initFailed, .failed f => (∃ r ∈ table, r.rehome = 0) ∧ ∃ tc st,
      defineCases ((env.sortSec (table.filter fun r => r.rehome > 0)).map Row.dateSec) datum a.dataWindow = .ok tc ∧
      processCases env.fit .static env.known env.defaults (env.sortSec (table.filter fun r => r.rehome > 0)) tc = .ok st ∧
      (∃ r ∈ st.rows, r.fit.flags.testBit 2 = true) ∧
      ∀ i, f.testBit i = true ↔ ∃ r ∈ st.rows, r.fit.flags.testBit i = true
  | .fitFailed, .failed f => ∃ known nom, passRel env table cases known nom .fitFailed (.failed f)
  | .done n, .merged l => ∃ known nom, passRel env table cases known nom (.done n) (.merged l)
  | _, _ => False

theorem passRel_fits {N : Type} (env : Env N) (a : Args) (table : List Row) (datum : List ℝ) (cases : List Case)
    (known : List PyStr) (nom : N) (o : Outcome) (c : Content) (h : passRel env table cases known nom o c) :
    fitsRel env a table datum cases o c := by
  cases o <;> cases c <;> first | exact ⟨known, nom, h⟩ | exact absurd h id

theorem good_fits {N : Type} (env : Env N) (a : Args) (table : List Row) (datum : List ℝ) (cases : List Case) :
    Good (resultPath a.savedir a.posid) (fitsRel env a table datum cases) (fits env a table datum cases) := by
  unfold fits
  have h0 : (¬ (table.all fun r => decide (r.rehome ≠ 0)) = true) → ∃ r ∈ table, r.rehome = 0 := by
    intro h
    by_contra hcon
    push Not at hcon
    exact h (by simpa using hcon)
  by_cases h1 : ¬ (table.all fun r => decide (r.rehome ≠ 0)) = true
  · rw [if_pos h1]
    dsimp only
    by_cases h2 : (table.filter fun r => decide (r.rehome > 0)).length < 10
    · rw [if_pos h2]
      exact good_write ⟨rfl, h0 h1, h2⟩
    · rw [if_neg h2]
      refine good_lift fun tc htc => good_lift fun st hst => good_lift fun flags hf => ?_
      obtain ⟨hne, rfl⟩ := flagsOf_ok hf
      split_ifs with h
      · refine good_write ⟨h0 h1, tc, st, htc, hst, ?_, ?_⟩
        · obtain ⟨f, hf, hb⟩ := (anyFailed_iff _).1 h
          obtain ⟨r, hr, rfl⟩ := List.mem_map.1 hf
          exact ⟨r, hr, hb⟩
        · intro i
          rw [orAll_testBit]
          simp
      · exact good_mono (good_passes _ _ _ _ _ _) fun o c h => passRel_fits _ _ _ _ _ _ _ o c h
  · rw [if_neg h1]
    exact good_mono (good_passes _ _ _ _ _ _) fun o c h => passRel_fits _ _ _ _ _ _ _ o c h

/-- Relation between outcome and file of the whole run. -/
def runRel {N : Type} (env : Env N) (a : Args) (t : Tbl) : Outcome → Content → Prop
  | .invalidTable, .failed f => f = 8 ∧ readTable env.sortDate a.posid a.sel a.force t = .ok none
  | .tooFewRows, .failed f => f = 16 ∧ ∃ rows table, readTable env.sortDate a.posid a.sel a.force t = .ok (some rows) ∧
      applyFilters env.sortSeq rows = .ok table ∧ (table = [] ∨ (table.length : ℤ) < a.minWindow)
  | o, c => ∃ rows table datum cases, readTable env.sortDate a.posid a.sel a.force t = .ok (some rows) ∧
      applyFilters env.sortSeq rows = .ok table ∧ table ≠ [] ∧ a.minWindow ≤ (table.length : ℤ) ∧
      datumDates a.periodDays table = .ok datum ∧
      defineCases ((env.sortSec table).map Row.dateSec) datum a.dataWindow = .ok cases ∧
      fitsRel env a (env.sortSec table) datum cases o c

theorem good_run {N : Type} (env : Env N) (a : Args) (t : Tbl) :
    Good (resultPath a.savedir a.posid) (runRel env a t) (runBestFits env a t) := by
  unfold runBestFits
  refine good_lift fun r hr => ?_
  cases r with
  | none => exact good_write ⟨rfl, hr⟩
  | some rows =>
    refine good_lift fun _ _ => good_lift fun table ht => ?_
    split_ifs with h
    · exact good_write ⟨rfl, rows, table, hr, ht, h⟩
    · refine good_lift fun datum hd => good_lift fun cases hc => good_mono (good_fits _ _ _ _ _) ?_
      intro o c hoc
      push Not at h
      have hx : ∃ rows table datum cases, readTable env.sortDate a.posid a.sel a.force t = .ok (some rows) ∧
          applyFilters env.sortSeq rows = .ok table ∧ table ≠ [] ∧ a.minWindow ≤ (table.length : ℤ) ∧
          datumDates a.periodDays table = .ok datum ∧
          defineCases ((env.sortSec table).map Row.dateSec) datum a.dataWindow = .ok cases ∧
          fitsRel env a (env.sortSec table) datum cases o c :=
        ⟨rows, table, datum, cases, hr, ht, h.1, h.2, hd, hc, hoc⟩
      cases o <;> cases c <;> first | exact hx | exact absurd hoc id

end Fh

/-- Whatever the table, the options and the fits do: `run_best_fits` either returns after writing
exactly one file, the result file of this positioner, whose flags give the reason (8: invalid table;
16: not enough data; a value with the FAILED_FIT bit 4: failed fit; no flag file: fits done), or
raises an exception having written nothing. -/
theorem C42_one_file {N : Type} (env : Env N) (a : Args) (t : Tbl) (w : List File) :
    (∃ o c, runBestFits env a t w = (.ok o, w ++ [⟨resultPath a.savedir a.posid, c⟩]) ∧
      match o, c with
      | .invalidTable, .failed f => f = 8
      | .tooFewRows, .failed f => f = 16
      | .tooFewRehomed, .failed f => f = 16
      | .initFailed, .failed f => f.testBit 2 = true
      | .fitFailed, .failed f => f.testBit 2 = true
      | .done _, .merged _ => True
      | _, _ => False) ∨
    ∃ e, runBestFits env a t w = (.error e, w) := by
  rcases Fh.good_run env a t w with ⟨o, c, h1, h2⟩ | h
  · refine Or.inl ⟨o, c, h1, ?_⟩
    cases o <;> cases c
    case invalidTable.failed => exact h2.1
    case tooFewRows.failed => exact h2.1
    case tooFewRehomed.failed =>
      obtain ⟨_, _, _, _, _, _, _, _, _, _, h⟩ := h2
      exact h.1
    case initFailed.failed =>
      obtain ⟨_, _, _, _, _, _, _, _, _, _, _, _, _, _, _, h, h'⟩ := h2
      exact (h' 2).2 h
    case fitFailed.failed =>
      obtain ⟨_, _, _, _, _, _, _, _, _, _, _, _, _, _, h, h'⟩ := h2
      exact (h' 2).2 h
    case done.merged => trivial
    all_goals
      first
      | exact absurd h2 id
      | (obtain ⟨_, _, _, _, _, _, _, _, _, _, h⟩ := h2; exact absurd h id)
  · exact Or.inr h

/-- The flag 8 is written exactly when `_read` finds no valid table. -/
theorem C42_invalid_table {N : Type} (env : Env N) (a : Args) (t : Tbl) (w : List File) :
    (runBestFits env a t w).1 = .ok .invalidTable ↔ readTable env.sortDate a.posid a.sel a.force t = .ok none := by
  constructor
  · intro h
    rcases Fh.good_run env a t w with ⟨o, c, h1, h2⟩ | ⟨e, he⟩
    · rw [h1] at h
      injection h with h
      subst h
      cases c
      · exact h2.2
      · obtain ⟨_, _, _, _, _, _, _, _, _, _, h⟩ := h2
        exact absurd h id
    · rw [he] at h; cases h
  · intro h
    simp [runBestFits, bind, Run.bind, lift, h, write, pure, Run.pure]

/-- The run ends with "too few rows" exactly when the number of different move counters among the
enabled rows is zero or less than the minimum. -/
theorem C42_too_few {N : Type} (env : Env N) (a : Args) (t : Tbl) (w : List File) (rows : List Row)
    (hs : ∀ l, (env.sortSeq l).Perm l) (ho : ∀ l, (env.sortSeq l).Pairwise fun x y => x.moveSeq ≤ y.moveSeq)
    (hr : readTable env.sortDate a.posid a.sel a.force t = .ok (some rows)) (hp : env.toPetal rows = .ok ()) :
    (runBestFits env a t w).1 = .ok .tooFewRows ↔
      (((rows.filter Row.enabled).map Row.moveSeq).dedup.length = 0 ∨
        (((rows.filter Row.enabled).map Row.moveSeq).dedup.length : ℤ) < a.minWindow) := by
  obtain ⟨t', ht, hsub, hen, hlt, hrep⟩ := C41_rows env.sortSeq hs ho rows
  have hlen : ((rows.filter Row.enabled).map Row.moveSeq).dedup.length = t'.length := by
    have hnd : (t'.map Row.moveSeq).Nodup := by
      rw [List.Nodup, List.pairwise_map]
      exact hlt.imp fun h => ne_of_lt h
    have : (((rows.filter Row.enabled).map Row.moveSeq).dedup).Perm (t'.map Row.moveSeq) := by
      rw [List.perm_ext_iff_of_nodup (List.nodup_dedup _) hnd]
      intro v
      simp only [List.mem_dedup, List.mem_map, List.mem_filter]
      constructor
      · rintro ⟨r, ⟨h1, h2⟩, rfl⟩
        exact hrep r h1 h2
      · rintro ⟨r, h1, rfl⟩
        exact ⟨r, ⟨hsub.subset h1, hen r h1⟩, rfl⟩
    rw [this.length_eq, List.length_map]
  rw [hlen, List.length_eq_zero_iff]
  constructor
  · intro h
    rcases Fh.good_run env a t w with ⟨o, c, h1, h2⟩ | ⟨e, he⟩
    · rw [h1] at h
      injection h with h
      subst h
      cases c
      · obtain ⟨_, rows', table', e1, e2, e3⟩ := h2
        rw [hr] at e1
        injection e1 with e1
        injection e1 with e1
        subst e1
        rw [ht] at e2
        injection e2 with e2
        subst e2
        exact e3
      · obtain ⟨_, _, _, _, _, _, _, _, _, _, h⟩ := h2
        exact absurd h id
    · rw [he] at h; cases h
  · intro h
    simp only [runBestFits, bind, Run.bind, lift, hr, hp, ht, pure]
    rw [if_pos h]
    rfl

/-- When the fits are done: the table was valid, with enough rows, no static fit failed, and the
file has a line for every window whose static and dynamic fits report the same flags. -/
theorem C42_done {N : Type} (env : Env N) (hsec : ∀ l, (env.sortSec l).Perm l) (a : Args) (t : Tbl) (w : List File) (n : ℕ)
    (h : (runBestFits env a t w).1 = .ok (.done n)) :
    ∃ (table : List Row) (cases : List Case) (st dy : OutTbl),
      cases.length = n ∧ a.minWindow ≤ (table.length : ℤ) ∧ st.rows ≠ [] ∧
      (∀ r ∈ st.rows, r.fit.flags.testBit 2 = false) ∧
      (∃ nom known, processCases env.fit .static known nom table cases = .ok st) ∧
      (∃ nom known, processCases env.fit .dynamic known nom table cases = .ok dy) ∧
      (∀ x ∈ table, ∀ y ∈ table, x.petalId = y.petalId ∧ x.petalLoc = y.petalLoc ∧ x.deviceLoc = y.deviceLoc) ∧
      (runBestFits env a t w).2 = w ++ [⟨resultPath a.savedir a.posid, .merged (joinRows st.rows dy.rows)⟩] ∧
      ∀ x ∈ st.rows, ∀ y ∈ dy.rows, (x, y) ∈ joinRows st.rows dy.rows ↔
        x.start = y.start ∧ x.final = y.final ∧ x.numPoints = y.numPoints ∧ x.fit.flags = y.fit.flags := by
  rcases Fh.good_run env a t w with ⟨o, c, h1, h2⟩ | ⟨e, he⟩
  · rw [h1] at h
    injection h with h
    subst h
    cases c
    · obtain ⟨_, _, _, _, _, _, _, _, _, _, h⟩ := h2
      exact absurd h id
    · obtain ⟨rows, table, datum, cases, hr, ht, hne, hmin, hd, hc, known, nom, hn, st, dy, e1, e2, e3, e4, e5, rfl⟩ := h2
      refine ⟨env.sortSec table, cases, st, dy, hn.symm, ?_, e3, e4, ⟨_, _, e1⟩, ⟨_, _, e2⟩, e5, by rw [h1], ?_⟩
      · rw [(hsec table).length_eq]; exact hmin
      · intro x hx y hy
        unfold joinRows
        simp only [List.mem_flatMap, List.mem_map, List.mem_filter, decide_eq_true_eq, Prod.mk.injEq]
        constructor
        · rintro ⟨x', _, y', ⟨_, h⟩, rfl, rfl⟩
          exact h
        · intro h
          exact ⟨x, hx, y, ⟨hy, h⟩, rfl, rfl⟩
  · rw [he] at h; cases h

namespace Fh

theorem read_eq (sortDate : List Row → List Row) (posid : PyStr) (sel : Option PyStr) (force : Bool) (t : Tbl)
    (hc : ∀ c ∈ ["POS_T".toList, "POS_P".toList, "LOG_NOTE".toList, "EXPOSURE_ID".toList, "RECENT_REHOME".toList,
      "DATE".toList], c ∈ t.cols) :
    ∃ cols, (∀ c ∈ t.cols, c ∈ cols) ∧
      (∀ c ∈ cols, c ∈ t.cols ∨ c = "GEAR_CALIB_T".toList ∨ c = "GEAR_CALIB_P".toList) ∧
      readTable sortDate posid sel force t =
      (let t2 := forceRehome force { cols := cols, rows := Model.Selection.posmoveSelection Row.note t.rows sel }
       if t2.rows.all fun r => ¬ (r.rehome > 0) then .error .runtimeError
       else .ok (checkTable posid { t2 with rows := sortDate t2.rows })) := by
  set rows := Model.Selection.posmoveSelection Row.note t.rows sel with hrowsdef
  simp only [List.mem_cons, List.not_mem_nil, or_false, forall_eq_or_imp, forall_eq] at hc
  obtain ⟨c1, c2, c3, c4, c5, c6⟩ := hc
  -- the columns before the selection
  have hgear : ∃ cols, (∀ c ∈ t.cols, c ∈ cols) ∧ (∀ c ∈ cols, c ∈ t.cols ∨ c = "GEAR_CALIB_T".toList ∨ c = "GEAR_CALIB_P".toList) ∧
      (addGear "GEAR_CALIB_T".toList "POS_T".toList t).bind (addGear "GEAR_CALIB_P".toList "POS_P".toList) =
        .ok { t with cols := cols } := by
    unfold addGear need
    by_cases h1 : "GEAR_CALIB_T".toList ∈ t.cols
    · rw [if_pos h1]
      by_cases h2 : "GEAR_CALIB_P".toList ∈ t.cols
      · exact ⟨t.cols, fun _ h => h, fun _ h => Or.inl h, by simp only [Except.bind]; rw [if_pos h2]⟩
      · refine ⟨t.cols ++ ["GEAR_CALIB_P".toList], fun _ h => List.mem_append_left _ h, ?_, ?_⟩
        · intro c h
          rcases List.mem_append.1 h with h | h
          · exact Or.inl h
          · exact Or.inr (Or.inr (List.mem_singleton.1 h))
        · simp only [Except.bind]; rw [if_neg h2, if_pos c2]; rfl
    · rw [if_neg h1, if_pos c1]
      by_cases h2 : "GEAR_CALIB_P".toList ∈ t.cols ++ ["GEAR_CALIB_T".toList]
      · refine ⟨t.cols ++ ["GEAR_CALIB_T".toList], fun _ h => List.mem_append_left _ h, ?_, ?_⟩
        · intro c h
          rcases List.mem_append.1 h with h | h
          · exact Or.inl h
          · exact Or.inr (Or.inl (List.mem_singleton.1 h))
        · simp only [Except.bind, bind, pure, Except.pure]; rw [if_pos h2]
      · refine ⟨t.cols ++ ["GEAR_CALIB_T".toList] ++ ["GEAR_CALIB_P".toList],
          fun _ h => List.mem_append_left _ (List.mem_append_left _ h), ?_, ?_⟩
        · intro c h
          rcases List.mem_append.1 h with h | h
          · rcases List.mem_append.1 h with h | h
            · exact Or.inl h
            · exact Or.inr (Or.inl (List.mem_singleton.1 h))
          · exact Or.inr (Or.inr (List.mem_singleton.1 h))
        · simp only [Except.bind, bind, pure, Except.pure]
          rw [if_neg h2, if_pos (List.mem_append_left _ c2)]
  obtain ⟨cols, hsub, hsup, hg⟩ := hgear
  refine ⟨cols, hsub, hsup, ?_⟩
  ·
    unfold readTable
    have e1 : ∀ f : Tbl → Except PyErr (Option (List Row)),
        ((addGear "GEAR_CALIB_T".toList "POS_T".toList t).bind fun t =>
          (addGear "GEAR_CALIB_P".toList "POS_P".toList t).bind f) = f { t with cols := cols } := by
      intro f
      have := congrArg (fun x => Except.bind x f) hg
      simp only [Except.bind] at this ⊢
      cases h1 : addGear "GEAR_CALIB_T".toList "POS_T".toList t with
      | error e => rw [h1] at hg; cases hg
      | ok u =>
        rw [h1] at hg this
        simp only [Except.bind] at hg this ⊢
        rw [hg] at this ⊢
    simp only [bind]
    rw [e1]
    have e2 : selectRows sel { t with cols := cols } = .ok { cols := cols, rows := rows } := by
      unfold selectRows need
      cases sel with
      | none => rfl
      | some s =>
        simp only [Option.isSome_some, if_true]
        rw [if_pos (hsub _ c3)]
        rfl
    rw [e2]
    simp only [Except.bind, need]
    rw [if_pos (hsub _ c4)]
    have hfc : ∀ c ∈ cols, c ∈ (forceRehome force { cols := cols, rows := rows }).cols := by
      intro c hc
      unfold forceRehome
      split_ifs
      · exact List.mem_append_left _ hc
      · exact hc
    dsimp only
    rw [if_pos (hfc _ (hsub _ c5))]
    dsimp only
    rw [if_pos (hfc _ (hsub _ c6))]
    rfl

theorem required_iff (cols cols' : List PyStr) (c1 : "POS_T".toList ∈ cols) (c2 : "POS_P".toList ∈ cols)
    (c6 : "DATE".toList ∈ cols)
    (h : ∀ c, c ≠ "RECENT_REHOME".toList → c ≠ "GEAR_CALIB_T".toList → c ≠ "GEAR_CALIB_P".toList →
      (c ∈ cols' ↔ c ∈ cols)) :
    (requiredKeys.all fun k => decide (k ∈ cols')) = true ↔
      ∀ k ∈ ["X_FP".toList, "Y_FP".toList, "CTRL_ENABLED".toList, "TOTAL_MOVE_SEQUENCES".toList,
        "POS_ID".toList, "PETAL_LOC".toList], k ∈ cols := by
  rw [List.all_eq_true]
  constructor
  · intro hall k hk
    have hreq : k ∈ requiredKeys := by
      revert k; decide
    have hd : k ≠ "RECENT_REHOME".toList ∧ k ≠ "GEAR_CALIB_T".toList ∧ k ≠ "GEAR_CALIB_P".toList := by
      clear hall hreq
      revert k; decide
    exact (h k hd.1 hd.2.1 hd.2.2).1 (by simpa using hall k hreq)
  · intro hall k hk
    have hd : k ≠ "RECENT_REHOME".toList ∧ k ≠ "GEAR_CALIB_T".toList ∧ k ≠ "GEAR_CALIB_P".toList := by
      revert k; decide
    rw [decide_eq_true_eq, h k hd.1 hd.2.1 hd.2.2]
    have hor : k = "POS_T".toList ∨ k = "POS_P".toList ∨ k = "DATE".toList ∨
        k ∈ ["X_FP".toList, "Y_FP".toList, "CTRL_ENABLED".toList, "TOTAL_MOVE_SEQUENCES".toList,
          "POS_ID".toList, "PETAL_LOC".toList] := by
      clear hd
      revert k; decide
    rcases hor with rfl | rfl | rfl | hk
    · exact c1
    · exact c2
    · exact c6
    · exact hall k hk

end Fh

/-- What `_read` decides, for a file with the columns used before the check: RuntimeError when no
selected row follows a rehoming, otherwise the table is valid iff every required column is present
and every row belongs to the positioner. -/
theorem C42_read (sortDate : List Row → List Row) (hs : ∀ l, (sortDate l).Perm l) (posid : PyStr) (sel : Option PyStr)
    (force : Bool) (t : Tbl)
    (hc : ∀ c ∈ ["POS_T".toList, "POS_P".toList, "LOG_NOTE".toList, "EXPOSURE_ID".toList, "RECENT_REHOME".toList,
      "DATE".toList], c ∈ t.cols) :
    let rows := Model.Selection.posmoveSelection Row.note t.rows sel
    if rows = [] ∨ (force = false ∧ ∀ r ∈ rows, r.rehome ≤ 0) then
      readTable sortDate posid sel force t = .error .runtimeError
    else
      ∃ r, readTable sortDate posid sel force t = .ok r ∧
        (r.isSome = true ↔ (∀ k ∈ ["X_FP".toList, "Y_FP".toList, "CTRL_ENABLED".toList, "TOTAL_MOVE_SEQUENCES".toList,
            "POS_ID".toList, "PETAL_LOC".toList], k ∈ t.cols) ∧ ∀ x ∈ rows, x.posId = posid) ∧
        ∀ l, r = some l → l.Perm (rows.map fun x => { x with
          enabled := str2bool x.ctrl, rehome := if force then 1 else x.rehome }) := by
  intro rows
  obtain ⟨cols, hsub, hsup, hread⟩ := Fh.read_eq sortDate posid sel force t hc
  have c1 := hc "POS_T".toList (by decide)
  have c2 := hc "POS_P".toList (by decide)
  have c6 := hc "DATE".toList (by decide)
  rw [hread]
  dsimp only
  have hrows : (forceRehome force { cols := cols, rows := rows }).rows =
      rows.map fun x => { x with rehome := if force then 1 else x.rehome } := by
    unfold forceRehome
    cases force with
    | true => rfl
    | false => simp
  have hcols : ∀ c, c ≠ "RECENT_REHOME".toList → (c ∈ (forceRehome force { cols := cols, rows := rows }).cols ↔ c ∈ cols) := by
    intro c hc
    unfold forceRehome
    split_ifs
    · rw [List.mem_append, List.mem_singleton]
      exact ⟨fun h => h.resolve_right hc, Or.inl⟩
    · rfl
  by_cases hcase : rows = [] ∨ (force = false ∧ ∀ r ∈ rows, r.rehome ≤ 0)
  · rw [if_pos hcase, if_pos]
    rw [hrows]
    simp only [List.all_map, List.all_eq_true, Function.comp, decide_eq_true_eq, not_lt]
    intro x hx
    rcases hcase with h | ⟨h, h'⟩
    · rw [h] at hx; simp at hx
    · rw [h]; simpa using h' x hx
  · rw [if_neg hcase]
    push Not at hcase
    have hneg : ¬ ((forceRehome force { cols := cols, rows := rows }).rows.all fun r => decide (¬ (r.rehome > 0))) = true := by
      rw [hrows]
      simp only [List.all_map, List.all_eq_true, Function.comp, decide_eq_true_eq, not_lt]
      intro hall
      cases force with
      | true =>
        obtain ⟨x, l, hxl⟩ := List.exists_cons_of_ne_nil hcase.1
        have := hall x (by rw [hxl]; simp)
        simp at this
      | false =>
        obtain ⟨x, hx, hpos⟩ := hcase.2 rfl
        have := hall x hx
        simp at this
        omega
    rw [if_neg hneg]
    refine ⟨_, rfl, ?_, ?_⟩
    · unfold checkTable
      rw [hrows]
      set L := rows.map fun x => { x with rehome := if force then 1 else x.rehome } with hL
      have hLne : sortDate L ≠ [] := by
        intro h
        have := (hs L).length_eq
        rw [h, hL, List.length_map] at this
        exact hcase.1 (List.length_eq_zero_iff.1 this.symm)
      have hpos : (∀ r ∈ sortDate L, r.posId = posid) ↔ ∀ x ∈ rows, x.posId = posid := by
        constructor
        · intro h x hx
          exact h { x with rehome := if force then 1 else x.rehome }
            ((hs L).symm.subset (List.mem_map.2 ⟨x, hx, rfl⟩))
        · intro h r hr
          obtain ⟨x, hx, rfl⟩ := List.mem_map.1 ((hs L).subset hr)
          exact h x hx
      have hreq : (requiredKeys.all fun k => decide (k ∈ (forceRehome force { cols := cols, rows := rows }).cols)) = true ↔
          ∀ k ∈ ["X_FP".toList, "Y_FP".toList, "CTRL_ENABLED".toList, "TOTAL_MOVE_SEQUENCES".toList,
            "POS_ID".toList, "PETAL_LOC".toList], k ∈ t.cols := by
        refine Fh.required_iff t.cols _ c1 c2 c6 ?_
        intro c n1 n2 n3
        rw [hcols c n1]
        refine ⟨fun h => ?_, hsub c⟩
        rcases hsup c h with h | h | h
        · exact h
        · exact absurd h n2
        · exact absurd h n3
      have hiff : (sortDate L ≠ [] ∧ (requiredKeys.all fun k => decide (k ∈ (forceRehome force { cols := cols, rows := rows }).cols)) = true ∧
          isPosid posid (sortDate L) = true) ↔
          (∀ k ∈ ["X_FP".toList, "Y_FP".toList, "CTRL_ENABLED".toList, "TOTAL_MOVE_SEQUENCES".toList,
            "POS_ID".toList, "PETAL_LOC".toList], k ∈ t.cols) ∧ ∀ x ∈ rows, x.posId = posid := by
        rw [hreq]
        unfold isPosid
        rw [decide_eq_true_iff, hpos]
        exact ⟨fun h => ⟨h.2.1, h.2.2.2⟩, fun h => ⟨hLne, h.1, hLne, h.2⟩⟩
      rw [← hiff]
      split_ifs with hh
      · simp only [Option.isSome_some, true_iff]
        exact hh
      · simp only [Option.isSome_none, Bool.false_eq_true, false_iff]
        exact hh
    · intro l hl
      unfold checkTable at hl
      split_ifs at hl with hh
      injection hl with hl
      rw [← hl]
      have := (hs (forceRehome force { cols := cols, rows := rows }).rows).map
        (fun r : Row => { r with enabled := str2bool r.ctrl })
      refine this.trans ?_
      rw [hrows, List.map_map]
      exact List.Perm.refl _

/-- Finding: the flag "empty input table" is never written for an empty table: the run ends with
RuntimeError and no file. -/
theorem C42_empty_table {N : Type} (env : Env N) (hs : ∀ l, (env.sortDate l).Perm l) (a : Args) (cols : List PyStr)
    (w : List File)
    (hc : ∀ c ∈ ["POS_T".toList, "POS_P".toList, "LOG_NOTE".toList, "EXPOSURE_ID".toList, "RECENT_REHOME".toList,
      "DATE".toList], c ∈ cols) :
    runBestFits env a ⟨cols, []⟩ w = (.error .runtimeError, w) := by
  have h := C42_read env.sortDate hs a.posid a.sel a.force ⟨cols, []⟩ hc
  have h0 : Model.Selection.posmoveSelection Row.note ([] : List Row) a.sel = [] := by
    cases a.sel <;> simp [Model.Selection.posmoveSelection, Model.Selection.mask]
  simp only [h0, true_or, if_true] at h
  simp only [runBestFits, bind, Run.bind, lift, h]

/-- Finding: when all rows left by the filters have the same date there is no window, and the run
ends with KeyError and no file. -/
theorem C42_same_time {N : Type} (env : Env N) (hsec : ∀ l, (env.sortSec l).Perm l) (a : Args) (t : Tbl) (w : List File)
    (rows table : List Row) (hr : readTable env.sortDate a.posid a.sel a.force t = .ok (some rows))
    (hp : env.toPetal rows = .ok ()) (ht : applyFilters env.sortSeq rows = .ok table) (hne : table ≠ [])
    (hmin : a.minWindow ≤ (table.length : ℤ)) (hreh : ∀ r ∈ table, r.rehome ≠ 0)
    (hper : a.periodDays ≠ 0) (hd : ∀ x ∈ table, ∀ y ∈ table, x.dateSec = y.dateSec) :
    runBestFits env a t w = (.error .keyError, w) := by
  obtain ⟨r0, l, rfl⟩ := List.exists_cons_of_ne_nil hne
  have hmm : ∀ x ∈ (r0 :: l).map fun r => r.dateSec, x = r0.dateSec := by
    intro x hx
    obtain ⟨r, hr, rfl⟩ := List.mem_map.1 hx
    exact hd r hr r0 (by simp)
  have hdat : datumDates a.periodDays (r0 :: l) = .ok [] := by
    unfold datumDates
    have h1 : ((r0 :: l).map fun r => r.dateSec).min? = some r0.dateSec := by
      rw [List.min?_eq_some_iff]
      exact ⟨by simp, fun b hb => by rw [hmm b hb]⟩
    have h2 : ((r0 :: l).map fun r => r.dateSec).max? = some r0.dateSec := by
      rw [List.max?_eq_some_iff]
      exact ⟨by simp, fun b hb => by rw [hmm b hb]⟩
    dsimp only
    rw [h1, h2]
    dsimp only
    unfold arange
    rw [if_neg (by simpa using hper)]
    simp
  simp only [runBestFits, bind, Run.bind, lift, hr, hp, ht, pure]
  rw [if_neg (by push Not; exact ⟨hne, hmin⟩), hdat]
  show fits env a (env.sortSec (r0 :: l)) [] [] w = _
  unfold fits
  have hall : ¬ ¬ ((env.sortSec (r0 :: l)).all fun r => decide (r.rehome ≠ 0)) = true := by
    rw [not_not, List.all_eq_true]
    intro x hx
    simpa using hreh x ((hsec _).subset hx)
  rw [if_neg hall]
  rfl

namespace Fh

/-- Invariant of the loop over the windows. -/
def Inv {N : Type} (s : N × List OutRow × List (PyStr × ℕ)) : Prop :=
  (s.2.1 = [] → s.2.2 = []) ∧ (∀ r ∈ s.2.1, ∀ k ∈ r.fit.eps, k ∈ s.2.2.map Prod.fst) ∧
    ∀ p ∈ s.2.2, p.2 ≤ s.2.1.length ∧ (p.2 = s.2.1.length → ∃ r, s.2.1.head? = some r ∧ p.1 ∈ r.fit.eps)

theorem inv_step {N : Type} (fit : Fit N) (mode : Mode) (table : List Row) (s s' : N × List OutRow × List (PyStr × ℕ))
    (c : Case) (h : oneCase fit mode table s c = .ok s') (hi : Inv s) : Inv s' := by
  unfold oneCase at h
  dsimp only at h
  split at h
  · split at h
    · cases h
    · rename_i a b _ _ _ o nom _
      injection h with h
      subst h
      obtain ⟨i1, i2, i3⟩ := hi
      refine ⟨by simp, ?_, ?_⟩
      · intro r hr k hk
        simp only [List.map_map]
        have hmap : (List.map (Prod.fst ∘ fun p : PyStr × ℕ => (p.1, p.2 + 1))
            (s.2.2 ++ (o.eps.filter fun k => decide (k ∉ s.2.2.map Prod.fst)).map fun k => (k, 0))) =
            s.2.2.map Prod.fst ++ (o.eps.filter fun k => decide (k ∉ s.2.2.map Prod.fst)) := by
          rw [List.map_append, List.map_map]
          congr 1
          exact List.map_id _
        rw [hmap]
        rcases List.mem_append.1 hr with hr | hr
        · exact List.mem_append_left _ (i2 r hr k hk)
        · have := List.mem_singleton.1 hr
          subst this
          by_cases hin : k ∈ s.2.2.map Prod.fst
          · exact List.mem_append_left _ hin
          · exact List.mem_append_right _ (List.mem_filter.2 ⟨hk, by simpa using hin⟩)
      · intro p hp
        obtain ⟨q, hq, rfl⟩ := List.mem_map.1 hp
        rw [List.length_append, List.length_singleton]
        rcases List.mem_append.1 hq with hq | hq
        · obtain ⟨h1, h2⟩ := i3 q hq
          refine ⟨by simpa using h1, fun he => ?_⟩
          obtain ⟨r, hr, hk⟩ := h2 (by simpa using he)
          refine ⟨r, ?_, hk⟩
          rw [List.head?_append, hr]; rfl
        · obtain ⟨k, hk, rfl⟩ := List.mem_map.1 hq
          refine ⟨by simp, fun he => ?_⟩
          have hlen : s.2.1.length = 0 := by simpa using he.symm
          have hnil := List.length_eq_zero_iff.1 hlen
          refine ⟨_, by rw [hnil]; rfl, (List.mem_filter.1 hk).1⟩
  · cases h

theorem inv_all {N : Type} (fit : Fit N) (mode : Mode) (table : List Row) (cs : List Case) :
    ∀ s s' : N × List OutRow × List (PyStr × ℕ), allCases fit mode table cs s = .ok s' → Inv s → Inv s' := by
  induction cs with
  | nil => intro s s' h hi; injection h with h; exact h ▸ hi
  | cons c cs ih =>
    intro s s' h hi
    unfold allCases at h
    split at h
    · cases h
    · rename_i s1 hs1
      exact ih s1 s' h (inv_step fit mode table s s1 c hs1 hi)

end Fh

/-- Finding: the windows of a positioner can only be tabulated when no window brings in a sequence
parameter (EPSILON) that the first window does not have; otherwise the whole program ends with
exit code 12, so that no result file is written. -/
theorem C42_new_sequence {N : Type} (fit : Fit N) (mode : Mode) (known : List PyStr) (nom nom' : N) (table : List Row)
    (cases : List Case) (rows : List OutRow) (cols : List (PyStr × ℕ))
    (h : allCases fit mode table cases (nom, [], []) = .ok (nom', rows, cols)) :
    (∀ r ∈ rows, ∀ k ∈ r.fit.eps, ∃ r0, rows.head? = some r0 ∧ k ∈ r0.fit.eps) ∨
      processCases fit mode known nom table cases = .error (.sysExit 12) := by
  have hi := Fh.inv_all fit mode table cases _ _ h ⟨fun _ => rfl, by simp, by simp⟩
  by_cases hall : (cols.all fun p => decide (p.2 = rows.length)) = true
  · left
    intro r hr k hk
    obtain ⟨p, hp, rfl⟩ := List.mem_map.1 (hi.2.1 r hr k hk)
    refine (hi.2.2 p hp).2 ?_
    simpa using List.all_eq_true.1 hall p hp
  · right
    unfold processCases
    rw [h]
    dsimp only
    rw [if_neg hall]

/-- Finding: with the sequences 1 and 10 (or any two numbers of which one is the start of the
other) the column of the second is renamed after the first, is not found again, and the run ends with
KeyError without a result file. -/
theorem C42_sequence_ten {N : Type} (env : Env N) (a : Args) (table : List Row) (cases : List Case) (nom nom' : N)
    (rows : List OutRow) (w : List File) (n : ℕ)
    (h : allCases env.fit .static table cases (nom, [], []) =
      .ok (nom', rows, [("EPSILON_P_1".toList, n), ("EPSILON_P_10".toList, n)]))
    (hn : rows.length = n) (hn0 : n ≠ 0) (hf : ∀ r ∈ rows, r.fit.flags.testBit 2 = false) :
    passes env a table cases [] nom w = (.error .keyError, w) := by
  have hp : processCases env.fit .static [] nom table cases =
      .ok ⟨rows, ["EPSILON_P_1_STATIC".toList, "EPSILON_P_1_STATIC0".toList],
        ["EPSILON_P_1".toList, "EPSILON_P_10".toList]⟩ := by
    unfold processCases
    rw [h]
    dsimp only
    rw [if_pos (by simp [hn])]
    congr 1
  have hne : rows ≠ [] := by rintro rfl; exact hn0 (by simpa using hn.symm)
  have hfl : flagsOf ⟨rows, ["EPSILON_P_1_STATIC".toList, "EPSILON_P_1_STATIC0".toList],
      ["EPSILON_P_1".toList, "EPSILON_P_10".toList]⟩ = .ok (rows.map fun r => r.fit.flags) := by
    unfold flagsOf
    rw [if_neg hne]
  have hany : ¬ anyFailed (rows.map fun r => r.fit.flags) = true := by
    rw [Fh.anyFailed_iff]
    rintro ⟨f, hf', hb⟩
    obtain ⟨r, hr, rfl⟩ := List.mem_map.1 hf'
    rw [hf r hr] at hb; cases hb
  have hfind : findEps ⟨rows, ["EPSILON_P_1_STATIC".toList, "EPSILON_P_1_STATIC0".toList],
      ["EPSILON_P_1".toList, "EPSILON_P_10".toList]⟩ = .error .keyError := by
    unfold findEps
    rw [if_neg]
    show ¬ ((["EPSILON_P_1_STATIC".toList, "EPSILON_P_1_STATIC0".toList] : List PyStr).all fun k => decide
      (("".toList).intercalate (split "_STATIC".toList k) ++ "_STATIC".toList ∈
        (["EPSILON_P_1_STATIC".toList, "EPSILON_P_1_STATIC0".toList] : List PyStr))) = true
    decide
  simp only [passes, bind, Run.bind, lift, hp, hfl, pure]
  rw [if_neg hany, hfind]
  rfl

/-- When both passes over the windows are through, the result file is written exactly if all rows of the table have the same petal
identifier, petal location and device location; otherwise the run ends with AssertionError and no file. -/
theorem C42_one_location {N : Type} (env : Env N) (a : Args) (table : List Row) (cases : List Case) (known : List PyStr) (nom : N)
    (st dy : OutTbl) (w : List File) (ht : table ≠ [])
    (hst : processCases env.fit .static known nom table cases = .ok st) (hne : st.rows ≠ [])
    (hf : ∀ r ∈ st.rows, r.fit.flags.testBit 2 = false) (he : findEps st = .ok ())
    (hdy : processCases env.fit .dynamic st.known (env.best st) table cases = .ok dy) :
    ((∀ x ∈ table, ∀ y ∈ table, x.petalId = y.petalId ∧ x.petalLoc = y.petalLoc ∧ x.deviceLoc = y.deviceLoc) →
      passes env a table cases known nom w =
        (.ok (.done cases.length), w ++ [⟨resultPath a.savedir a.posid, .merged (joinRows st.rows dy.rows)⟩])) ∧
    (¬ (∀ x ∈ table, ∀ y ∈ table, x.petalId = y.petalId ∧ x.petalLoc = y.petalLoc ∧ x.deviceLoc = y.deviceLoc) →
      passes env a table cases known nom w = (.error .assertionError, w)) := by
  have hfl : flagsOf st = .ok (st.rows.map fun r => r.fit.flags) := by unfold flagsOf; rw [if_neg hne]
  have hany : ¬ anyFailed (st.rows.map fun r => r.fit.flags) = true := by
    rw [Fh.anyFailed_iff]
    rintro ⟨f, hf', hb⟩
    obtain ⟨r, hr, rfl⟩ := List.mem_map.1 hf'
    rw [hf r hr] at hb; cases hb
  obtain ⟨h1, h2⟩ := Fh.passthru_iff table
  constructor
  · intro h
    have hp := h1.2 ⟨ht, h⟩
    simp only [passes, bind, Run.bind, lift, hst, hfl, pure]
    rw [if_neg hany]
    simp only [he, hdy, hp, Run.bind, lift]
    rfl
  · intro h
    have hp : passthru table = .error .assertionError := h2.resolve_left fun h3 => h (h1.1 h3).2
    simp only [passes, bind, Run.bind, lift, hst, hfl, pure]
    rw [if_neg hany]
    simp only [he, hdy, hp, Run.bind, lift]

/-- A row counts as enabled when CTRL_ENABLED is the boolean True, the number 1, or the word true or yes written in small letters, with
a capital, or in capitals. -/
theorem C42_enabled (c : Cell) : str2bool c = true ↔ c = .bool true ∨ c = .int 1 ∨
    ∃ w ∈ [['t', 'r', 'u', 'e'], ['y', 'e', 's']], c = .str w ∨ c = .str (w.map Char.toUpper) ∨
      c = .str ((w.take 1).map Char.toUpper ++ w.drop 1) := by
  cases c with
  | bool b => simp [str2bool]
  | int i => simp [str2bool]
  | str s =>
    have e : (['t', 'r', 'u', 'e'] : List Char).map Char.toUpper = ['T', 'R', 'U', 'E'] := by decide
    have e' : (['y', 'e', 's'] : List Char).map Char.toUpper = ['Y', 'E', 'S'] := by decide
    have f : ((['t', 'r', 'u', 'e'] : List Char).take 1).map Char.toUpper ++ (['t', 'r', 'u', 'e'] : List Char).drop 1 = ['T', 'r', 'u', 'e'] := by
      decide
    have f' : ((['y', 'e', 's'] : List Char).take 1).map Char.toUpper ++ (['y', 'e', 's'] : List Char).drop 1 = ['Y', 'e', 's'] := by
      decide
    simp only [List.mem_cons, List.not_mem_nil, or_false, exists_eq_or_imp, exists_eq_left, e, e', f, f', reduceCtorEq, false_or, Cell.str.injEq]
    unfold str2bool
    simp only [List.mem_cons, List.not_mem_nil, or_false, decide_eq_true_eq]
    show s = ['T', 'r', 'u', 'e'] ∨ s = ['t', 'r', 'u', 'e'] ∨ s = ['T', 'R', 'U', 'E'] ∨ s = ['Y', 'e', 's'] ∨ s = ['y', 'e', 's'] ∨
      s = ['Y', 'E', 'S'] ↔ _
    tauto

/-- A table with one row for which the hypotheses of `C42_read` hold and the table is valid. -/
example : ∃ r, readTable id "M00001".toList none false
    ⟨["POS_T".toList, "POS_P".toList, "LOG_NOTE".toList, "EXPOSURE_ID".toList, "RECENT_REHOME".toList, "DATE".toList,
      "X_FP".toList, "Y_FP".toList, "CTRL_ENABLED".toList, "TOTAL_MOVE_SEQUENCES".toList, "POS_ID".toList,
      "PETAL_LOC".toList],
     [{ tag := 0, enabled := false, moveSeq := 5, cruiseT := 0, cruiseP := 0, dateSec := 0, ctrl := .str "True".toList,
        posId := "M00001".toList }]⟩ = .ok (some r) ∧ r.map Row.enabled = [true] := by
  refine ⟨_, rfl, ?_⟩
  simp [str2bool, forceRehome, Model.Selection.posmoveSelection]

/-- Two rows of one positioner. -/
noncomputable def Fh.two : List Row :=
  [{ tag := 0, enabled := true, moveSeq := 5, cruiseT := 0, cruiseP := 0, dateSec := 0, posId := "M00001".toList },
   { tag := 1, enabled := true, moveSeq := 6, cruiseT := 0, cruiseP := 0, dateSec := 1, posId := "M00001".toList }]

/-- Fits that find these parameters. -/
noncomputable def Fh.env (eps : List PyStr) : Env Unit :=
  ⟨id, id, id, fun _ => .ok (), fun _ _ n => .ok (⟨0, 0, eps⟩, n), (), [], fun _ => ()⟩

/-- The hypotheses of `C42_sequence_ten` and `C42_new_sequence` can be met. -/
example : ∃ rows, allCases (Fh.env ["EPSILON_P_1".toList, "EPSILON_P_10".toList]).fit .static Fh.two [⟨0, 1⟩] ((), [], []) =
    .ok ((), rows, [("EPSILON_P_1".toList, 1), ("EPSILON_P_10".toList, 1)]) ∧ rows.length = 1 ∧
      ∀ r ∈ rows, r.fit.flags.testBit 2 = false := by
  refine ⟨_, rfl, rfl, ?_⟩
  intro r hr
  rw [List.mem_singleton.1 hr]
  rfl

/-- The hypotheses of `C42_one_location` can be met. -/
example : ∃ st dy, processCases (Fh.env ["EPSILON_P_1".toList]).fit .static [] () Fh.two [⟨0, 1⟩] = .ok st ∧ st.rows ≠ [] ∧
    (∀ r ∈ st.rows, r.fit.flags.testBit 2 = false) ∧ findEps st = .ok () ∧
    processCases (Fh.env ["EPSILON_P_1".toList]).fit .dynamic st.known () Fh.two [⟨0, 1⟩] = .ok dy := by
  refine ⟨_, _, rfl, by simp, ?_, rfl, rfl⟩
  intro r hr
  rw [List.mem_singleton.1 hr]
  rfl

/-- A run that ends with a result for one window (`C42_done`). -/
example : (runBestFits (Fh.env ["EPSILON_P_1".toList]) ⟨"M00001".toList, 1, 2, "out".toList, 2, none, false⟩
    ⟨["POS_T".toList, "POS_P".toList, "LOG_NOTE".toList, "EXPOSURE_ID".toList, "RECENT_REHOME".toList, "DATE".toList,
      "X_FP".toList, "Y_FP".toList, "CTRL_ENABLED".toList, "TOTAL_MOVE_SEQUENCES".toList, "POS_ID".toList,
      "PETAL_LOC".toList], Fh.two⟩ []).1 = .ok (.done 1) := by
  have hr : readTable id "M00001".toList none false
    ⟨["POS_T".toList, "POS_P".toList, "LOG_NOTE".toList, "EXPOSURE_ID".toList, "RECENT_REHOME".toList, "DATE".toList,
      "X_FP".toList, "Y_FP".toList, "CTRL_ENABLED".toList, "TOTAL_MOVE_SEQUENCES".toList, "POS_ID".toList,
      "PETAL_LOC".toList], Fh.two⟩ = .ok (some Fh.two) := rfl
  have hf : applyFilters id Fh.two = .ok Fh.two := rfl
  have hd : datumDates 1 Fh.two = .ok [0] := by
    have h1 : (Fh.two.map fun r => r.dateSec).min? = some (0 : ℝ) := by simp [Fh.two]
    have h2 : (Fh.two.map fun r => r.dateSec).max? = some (1 : ℝ) := by simp [Fh.two]
    unfold datumDates
    dsimp only
    rw [h1, h2]
    dsimp only
    unfold arange
    rw [if_neg (by norm_num)]
    have h3 : ⌈((1 : ℝ) - 0) / (1 * 24 * 60 * 60)⌉ = 1 := by
      rw [Int.ceil_eq_iff]
      norm_num
    rw [h3]
    simp
  have hc : defineCases (Fh.two.map fun r => r.dateSec) [0] 2 = .ok [⟨0, 1⟩] := rfl
  have hp := (C42_one_location (Fh.env ["EPSILON_P_1".toList]) ⟨"M00001".toList, 1, 2, "out".toList, 2, none, false⟩ Fh.two [⟨0, 1⟩] [] ()
    _ _ [] (by simp [Fh.two]) rfl (by simp) (fun r hr => by rw [List.mem_singleton.1 hr]; rfl) rfl rfl).1 (by
      intro x hx y hy
      simp only [Fh.two, List.mem_cons, List.not_mem_nil, or_false] at hx hy
      rcases hx with rfl | rfl <;> rcases hy with rfl | rfl <;> simp)
  have hg : fits (Fh.env ["EPSILON_P_1".toList]) ⟨"M00001".toList, 1, 2, "out".toList, 2, none, false⟩ Fh.two [0] [⟨0, 1⟩] =
      passes (Fh.env ["EPSILON_P_1".toList]) ⟨"M00001".toList, 1, 2, "out".toList, 2, none, false⟩ Fh.two [⟨0, 1⟩] [] () := by
    unfold fits
    rw [if_neg (by simp [Fh.two])]
    rfl
  simp only [runBestFits, bind, Run.bind, lift]
  rw [show (Fh.env ["EPSILON_P_1".toList]).sortDate = id from rfl, hr]
  simp only [Run.bind, lift]
  rw [show (Fh.env ["EPSILON_P_1".toList]).toPetal Fh.two = .ok () from rfl]
  simp only [Run.bind, lift]
  rw [show (Fh.env ["EPSILON_P_1".toList]).sortSeq = id from rfl, hf]
  simp only [Run.bind, lift]
  rw [if_neg (by simp [Fh.two])]
  simp only [Run.bind, lift, hd]
  rw [show (Fh.env ["EPSILON_P_1".toList]).sortSec = id from rfl, id, hc]
  simp only [hg, hp]
  rfl

end Verif.Props
