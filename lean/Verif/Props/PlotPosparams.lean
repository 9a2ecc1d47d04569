import Verif.Model.PlotPosparams
import Verif.Props.BinErrors
import Verif.Props.PlotPosmoves
import Verif.Props.Selection
import Verif.Lemmas.Sort

/-!
# C119: plots of the parameters of positioners
-/

set_option linter.unusedSectionVars false

namespace Verif.Props.PlotPosparams
open Verif.Py Verif.Model.PlotPosparams
open Verif.Model.BinErrors (Bins Binned binErrors least greatest periods subtable status follow groups passes ceilings)
open Verif.Model.ProcessFvc (basename)
open Verif.Model.PosparamsJobs (splitext)
open Verif.Model.PlotPosmoves (join)
open Verif.Props.RayRun (bind_iff mapM_iff map_ok)

/-! ## The counts depend on the set of rows only -/

section bins

variable {κ : Type} [DecidableEq κ]

theorem least_congr {a b : ℝ} {l m : List ℝ} (h : ∀ x, x ∈ a :: l ↔ x ∈ b :: m) : least a l = least b m := by
  have h1 := Props.BinErrors.least_spec a l
  have h2 := Props.BinErrors.least_spec b m
  exact le_antisymm (h1.1 _ ((h _).2 h2.2)) (h2.1 _ ((h _).1 h1.2))

theorem greatest_congr {a b : ℝ} {l m : List ℝ} (h : ∀ x, x ∈ a :: l ↔ x ∈ b :: m) : greatest a l = greatest b m := by
  have h1 := Props.BinErrors.greatest_spec a l
  have h2 := Props.BinErrors.greatest_spec b m
  exact le_antisymm (h2.1 _ ((h _).1 h1.2)) (h1.1 _ ((h _).2 h2.2))

theorem toFinset_congr {α β : Type} [DecidableEq β] (f : α → β) {s t : List α} (h : ∀ r, r ∈ s ↔ r ∈ t) : (s.map f).toFinset = (t.map f).toFinset := by
  ext x
  simp only [List.mem_toFinset, List.mem_map, h]

theorem filter_mem_congr {α : Type} (p : α → Bool) {s t : List α} (h : ∀ r, r ∈ s ↔ r ∈ t) (r : α) : r ∈ s.filter p ↔ r ∈ t.filter p := by
  simp only [List.mem_filter, h]

theorem status_congr (ids : Finset κ) (c : WithTop ℝ) {s t : List (Model.BinErrors.Row κ)} (h : ∀ r, r ∈ s ↔ r ∈ t) (prev : Option (Finset κ × Finset κ)) :
    status ids c s prev = status ids c t prev := by
  unfold status
  rw [toFinset_congr _ (filter_mem_congr (passes c) h), toFinset_congr _ (filter_mem_congr (fun r => !passes c r) h)]

theorem follow_congr (c : WithTop ℝ) {s t : List (Model.BinErrors.Row κ)} (h : ∀ r, r ∈ s ↔ r ∈ t) (ds : List ℝ) (p : Finset κ × Finset κ) :
    follow s c p ds = follow t c p ds := by
  induction ds generalizing p with
  | nil => rfl
  | cons d ds ih =>
    have e : status (s.map Model.BinErrors.Row.id).toFinset c (subtable s false d) (some p) =
        status (t.map Model.BinErrors.Row.id).toFinset c (subtable t false d) (some p) := by
      rw [toFinset_congr _ h]
      exact status_congr _ c (filter_mem_congr _ h) _
    simp only [follow]
    rw [e, ih]

theorem groups_congr (c : WithTop ℝ) {s t : List (Model.BinErrors.Row κ)} (h : ∀ r, r ∈ s ↔ r ∈ t) (ds : List ℝ) :
    groups s c ds = groups t c ds := by
  cases ds with
  | nil => rfl
  | cons d ds =>
    have e : status (s.map Model.BinErrors.Row.id).toFinset c (subtable s true d) none =
        status (t.map Model.BinErrors.Row.id).toFinset c (subtable t true d) none := by
      rw [toFinset_congr _ h]
      exact status_congr _ c (filter_mem_congr _ h) _
    simp only [groups]
    rw [e, follow_congr c h]

/-- **C119** The counts within the thresholds depend on the set of the rows only, not on their order or number of repetitions. -/
theorem C119_bins_set (int? : PyStr → Option ℤ) (s t : List (Model.BinErrors.Row κ)) (h : ∀ r, r ∈ s ↔ r ∈ t) (bins : Bins) :
    binErrors int? s bins = binErrors int? t bins := by
  rcases s with _ | ⟨r, rs⟩
  · rcases t with _ | ⟨r', rs'⟩
    · rfl
    · exact absurd ((h r').2 (by simp)) (by simp)
  · rcases t with _ | ⟨r', rs'⟩
    · exact absurd ((h r).1 (by simp)) (by simp)
    · have hm : ∀ x, x ∈ r.err :: rs.map Model.BinErrors.Row.err ↔ x ∈ r'.err :: rs'.map Model.BinErrors.Row.err := by
        intro x
        rw [← List.map_cons, ← List.map_cons, List.mem_map, List.mem_map]
        simp only [h]
      have hp : periods (r :: rs) = periods (r' :: rs') := by
        unfold periods
        rw [toFinset_congr _ h]
      have hg : ∀ ds, (fun c => groups (r :: rs) c ds) = fun c => groups (r' :: rs') c ds := fun ds => funext fun c => groups_congr c h ds
      have hg' : ∀ c ds, groups (r :: rs) c ds = groups (r' :: rs') c ds := fun c ds => groups_congr c h ds
      unfold binErrors
      dsimp only
      rw [least_congr hm, greatest_congr hm]
      simp only [hp, hg']

end bins

/-! ## Specification -/

/-- The extension of the name (without directory) contains `csv`. -/
def CsvName (path : PyStr) : Prop :=
  ∃ stem ext, basename path = stem ++ '.' :: ext ∧ (∃ c ∈ stem, c ≠ '.') ∧ '.' ∉ ext ∧ "csv".toList <:+: ext

/-- The columns looked for. -/
def needed : List PyStr :=
  ["ANALYSIS_DATE_STATIC".toList, "DATA_END_DATE_SEC".toList, "FIT_ERROR_DYNAMIC".toList, "FIT_ERROR_STATIC".toList, "LENGTH_R1_STATIC".toList,
   "LENGTH_R2_STATIC".toList, "NUM_POINTS".toList, "OFFSET_P_STATIC".toList, "OFFSET_T_STATIC".toList, "OFFSET_X_STATIC".toList, "OFFSET_Y_STATIC".toList,
   "POS_ID".toList, "SCALE_P_DYNAMIC".toList, "SCALE_T_DYNAMIC".toList]

/-- All of them are there. -/
def HasAll (t : Table) : Prop := ∀ k ∈ needed, k ∈ t.names

/-- All files with such a name can be read. -/
def Readable (read : PyStr → Except PyErr Table) (files : List PyStr) : Prop := ∀ f ∈ files, CsvName f → ∃ t, read f = .ok t

/-- File `f` is used, with table `t`. -/
def Uses (read : PyStr → Except PyErr Table) (f : PyStr) (t : Table) : Prop := CsvName f ∧ read f = .ok t ∧ HasAll t

/-- The row is one of a file used. -/
def UsedRow (read : PyStr → Except PyErr Table) (files : List PyStr) (r : Row) : Prop := ∃ f ∈ files, ∃ t, Uses read f t ∧ r ∈ t.rows

/-- A column of a file used. -/
def UsedName (read : PyStr → Except PyErr Table) (files : List PyStr) (k : PyStr) : Prop := ∃ f ∈ files, ∃ t, Uses read f t ∧ k ∈ t.names

/-- The rows a file gives. -/
def Gives (read : PyStr → Except PyErr Table) (f : PyStr) (rows : List Row) : Prop :=
  (∀ t, Uses read f t → rows = t.rows) ∧ ((¬ ∃ t, Uses read f t) → rows = [])

/-- `table.sort` by positioner and date. -/
def Orders (sort : List Row → List Row) : Prop :=
  ∀ l, (sort l).Perm l ∧ (sort l).Pairwise fun x y => x.posid < y.posid ∨ x.posid = y.posid ∧ x.date ≤ y.date

/-! ## Names of files -/

theorem pyIn_iff (sub s : PyStr) : pyIn sub s = true ↔ sub <:+: s := by
  induction s with
  | nil => cases sub <;> simp [pyIn]
  | cons c t ih =>
    simp only [pyIn, Bool.or_eq_true, List.isPrefixOf_iff_prefix, ih, List.infix_cons_iff]

theorem splitext_iff (b stem ext : PyStr) (hd : '.' ∉ ext) : splitext b = (stem, '.' :: ext) ↔ b = stem ++ '.' :: ext ∧ ∃ c ∈ stem, c ≠ '.' := by
  have htd := List.takeWhile_append_dropWhile (p := fun c => decide (c ≠ '.')) (l := b.reverse)
  unfold splitext
  constructor
  · intro h
    rcases hd' : b.reverse.dropWhile (fun c => decide (c ≠ '.')) with _ | ⟨d, s⟩
    · rw [hd'] at h
      exact absurd (Prod.mk.inj h).2 (by simp)
    · rw [hd'] at h
      dsimp only at h
      split_ifs at h with ha
      · exact absurd (Prod.mk.inj h).2 (by simp)
      · obtain ⟨h1, h2⟩ := Prod.mk.inj h
        have h2' : (b.reverse.takeWhile (fun c => decide (c ≠ '.'))).reverse = ext := (List.cons.inj h2).2
        have hdd : d = '.' := by
          have := List.head_dropWhile_not (l := b.reverse) (fun c => decide (c ≠ '.')) (by rw [hd']; simp)
          simp only [hd', List.head_cons] at this
          simpa using this
        refine ⟨?_, ?_⟩
        · rw [hd', hdd] at htd
          have := congrArg List.reverse htd
          rw [List.reverse_append, List.reverse_cons, List.reverse_reverse, h1, h2'] at this
          rw [← this]
          simp
        · simp only [List.all_eq_true, decide_eq_true_eq, not_forall] at ha
          obtain ⟨c, hc, hne⟩ := ha
          exact ⟨c, by rw [← h1]; exact List.mem_reverse.2 hc, hne⟩
  · rintro ⟨rfl, c, hc, hne⟩
    have hall : ∀ x ∈ ext.reverse, decide (x ≠ '.') = true := fun x hx => decide_eq_true (fun e => hd (e ▸ List.mem_reverse.1 hx))
    have e : (stem ++ '.' :: ext).reverse = ext.reverse ++ '.' :: stem.reverse := by simp
    have hdw : (stem ++ '.' :: ext).reverse.dropWhile (fun c => decide (c ≠ '.')) = '.' :: stem.reverse := by
      rw [e, List.dropWhile_append_of_pos hall]
      simp [List.dropWhile]
    have ht : (stem ++ '.' :: ext).reverse.takeWhile (fun c => decide (c ≠ '.')) = ext.reverse := by
      rw [e, List.takeWhile_append_of_pos hall]
      simp [List.takeWhile]
    rw [hdw]
    dsimp only
    rw [if_neg, ht]
    · simp
    · simp only [List.all_eq_true, decide_eq_true_eq, not_forall]
      exact ⟨c, List.mem_reverse.2 hc, hne⟩

theorem splitext_form (b : PyStr) : (splitext b).2 = [] ∨ ∃ ext, (splitext b).2 = '.' :: ext ∧ '.' ∉ ext := by
  unfold splitext
  rcases hd' : b.reverse.dropWhile (fun c => decide (c ≠ '.')) with _ | ⟨d, s⟩
  · exact Or.inl rfl
  · dsimp only
    split_ifs
    · exact Or.inl rfl
    · refine Or.inr ⟨_, rfl, ?_⟩
      intro hm
      have := List.mem_takeWhile_imp (List.mem_reverse.1 hm)
      simp at this

theorem isCsv_iff (f : PyStr) : isCsv f = true ↔ CsvName f := by
  unfold isCsv CsvName
  rw [pyIn_iff]
  have hc : ("csv".toList : PyStr) = ['c', 's', 'v'] := rfl
  rw [hc]
  constructor
  · intro h
    rcases splitext_form (basename f) with e | ⟨ext, e, hd⟩
    · rw [e] at h
      exact absurd (List.eq_nil_of_infix_nil h) (by simp)
    · have hs : splitext (basename f) = ((splitext (basename f)).1, '.' :: ext) := by rw [← e]
      obtain ⟨h1, h2⟩ := (splitext_iff _ _ _ hd).1 hs
      refine ⟨_, ext, h1, h2, hd, ?_⟩
      rw [e, List.infix_cons_iff] at h
      rcases h with h | h
      · exact absurd h (by simp [List.cons_prefix_cons])
      · exact h
  · rintro ⟨stem, ext, h1, h2, hd, h3⟩
    rw [(splitext_iff _ _ _ hd).2 ⟨h1, h2⟩]
    exact h3.trans (List.infix_cons List.infix_rfl)

theorem complete_iff (t : Table) : complete t = true ↔ HasAll t := by
  unfold complete HasAll
  rw [List.all_eq_true]
  simp only [decide_eq_true_eq]
  have h1 : ∀ k ∈ required, k ∈ needed := by decide
  have h2 : ∀ k ∈ needed, k ∈ required := by decide
  exact ⟨fun h k hk => h k (h2 k hk), fun h k hk => h k (h1 k hk)⟩

/-! ## Reading -/

open Classical in
/-- The table of a file used. -/
noncomputable def tableOf (read : PyStr → Except PyErr Table) (f : PyStr) : Option Table :=
  if h : ∃ t, Uses read f t then some h.choose else none

theorem uses_unique {read : PyStr → Except PyErr Table} {f : PyStr} {t t' : Table} (h : Uses read f t) (h' : Uses read f t') : t = t' :=
  Except.ok.inj (h.2.1.symm.trans h'.2.1)

theorem tableOf_some (read : PyStr → Except PyErr Table) (f : PyStr) (t : Table) : tableOf read f = some t ↔ Uses read f t := by
  unfold tableOf
  split_ifs with h
  · constructor
    · intro e
      exact (Option.some.inj e) ▸ h.choose_spec
    · intro e
      exact congrArg some (uses_unique h.choose_spec e)
  · exact ⟨fun e => (nomatch e), fun e => absurd ⟨t, e⟩ h⟩

theorem tableOf_none (read : PyStr → Except PyErr Table) (f : PyStr) (h : ¬ ∃ t, Uses read f t) : tableOf read f = none := by
  rcases e : tableOf read f with _ | t
  · rfl
  · exact absurd ⟨t, (tableOf_some read f t).1 e⟩ h

theorem load_iff (read : PyStr → Except PyErr Table) (files : List PyStr) (ts : List Table) :
    load read files = .ok ts ↔ Readable read files ∧ ts = files.filterMap (tableOf read) := by
  induction files generalizing ts with
  | nil =>
    constructor
    · intro h
      exact ⟨fun f hf => absurd hf (by simp), (Except.ok.inj h).symm⟩
    · rintro ⟨_, rfl⟩
      rfl
  | cons f fs ih =>
    have hr : Readable read (f :: fs) ↔ (CsvName f → ∃ t, read f = .ok t) ∧ Readable read fs := by
      unfold Readable
      simp only [List.mem_cons, forall_eq_or_imp]
    rw [hr]
    unfold load
    by_cases hc : isCsv f = true
    · rw [if_pos hc]
      have hcn := (isCsv_iff f).1 hc
      rw [bind_iff]
      constructor
      · rintro ⟨t, ht, h2⟩
        rw [bind_iff] at h2
        obtain ⟨ts', hl, h3⟩ := h2
        obtain ⟨h4, h5⟩ := (ih ts').1 hl
        refine ⟨⟨fun _ => ⟨t, ht⟩, h4⟩, ?_⟩
        have h3 := Except.ok.inj h3
        by_cases hk : complete t = true
        · rw [if_pos hk] at h3
          rw [List.filterMap_cons_some ((tableOf_some read f t).2 ⟨hcn, ht, (complete_iff t).1 hk⟩), ← h5, ← h3]
        · rw [if_neg hk] at h3
          rw [List.filterMap_cons_none, ← h5, ← h3]
          refine tableOf_none read f ?_
          rintro ⟨t', hu⟩
          have : t' = t := Except.ok.inj (hu.2.1.symm.trans ht)
          exact hk ((complete_iff t).2 (this ▸ hu.2.2))
      · rintro ⟨⟨h1, h2⟩, h3⟩
        obtain ⟨t, ht⟩ := h1 hcn
        refine ⟨t, ht, ?_⟩
        rw [bind_iff]
        refine ⟨_, (ih _).2 ⟨h2, rfl⟩, ?_⟩
        refine congrArg Except.ok ?_
        rw [h3]
        by_cases hk : complete t = true
        · rw [if_pos hk, List.filterMap_cons_some ((tableOf_some read f t).2 ⟨hcn, ht, (complete_iff t).1 hk⟩)]
        · rw [if_neg hk, List.filterMap_cons_none]
          refine tableOf_none read f ?_
          rintro ⟨t', hu⟩
          have : t' = t := Except.ok.inj (hu.2.1.symm.trans ht)
          exact hk ((complete_iff t).2 (this ▸ hu.2.2))
    · rw [if_neg hc, ih]
      have hcn : ¬ CsvName f := fun h => hc ((isCsv_iff f).2 h)
      rw [List.filterMap_cons_none (tableOf_none read f (fun ⟨t, hu⟩ => hcn hu.1))]
      exact ⟨fun h => ⟨⟨fun h' => absurd h' hcn, h.1⟩, h.2⟩, fun h => ⟨h.1.2, h.2⟩⟩

/-- The rows of all files used. -/
noncomputable def allRows (read : PyStr → Except PyErr Table) (files : List PyStr) : List Row := ((files.filterMap (tableOf read)).map Table.rows).flatten

/-- The columns of all files used. -/
noncomputable def allNames (read : PyStr → Except PyErr Table) (files : List PyStr) : List PyStr := ((files.filterMap (tableOf read)).map Table.names).flatten

theorem mem_allRows (read : PyStr → Except PyErr Table) (files : List PyStr) (r : Row) : r ∈ allRows read files ↔ UsedRow read files r := by
  unfold allRows UsedRow
  simp only [List.mem_flatten, List.mem_map, List.mem_filterMap, tableOf_some]
  constructor
  · rintro ⟨_, ⟨t, ⟨f, hf, hu⟩, rfl⟩, hr⟩
    exact ⟨f, hf, t, hu, hr⟩
  · rintro ⟨f, hf, t, hu, hr⟩
    exact ⟨_, ⟨t, ⟨f, hf, hu⟩, rfl⟩, hr⟩

theorem mem_allNames (read : PyStr → Except PyErr Table) (files : List PyStr) (k : PyStr) : k ∈ allNames read files ↔ UsedName read files k := by
  unfold allNames UsedName
  simp only [List.mem_flatten, List.mem_map, List.mem_filterMap, tableOf_some]
  constructor
  · rintro ⟨_, ⟨t, ⟨f, hf, hu⟩, rfl⟩, hr⟩
    exact ⟨f, hf, t, hu, hr⟩
  · rintro ⟨f, hf, t, hu, hr⟩
    exact ⟨_, ⟨t, ⟨f, hf, hu⟩, rfl⟩, hr⟩

theorem gives_flatten (read : PyStr → Except PyErr Table) (files : List PyStr) (parts : List (List Row)) (h : List.Forall₂ (Gives read) files parts) :
    parts.flatten = allRows read files := by
  induction h with
  | nil => rfl
  | @cons f p fs ps hg _ ih =>
    unfold allRows at ih ⊢
    rcases e : tableOf read f with _ | t
    · rw [List.filterMap_cons_none e, List.flatten_cons, ih, hg.2, List.nil_append]
      rintro ⟨t, hu⟩
      rw [(tableOf_some read f t).2 hu] at e
      cases e
    · rw [List.filterMap_cons_some e, List.flatten_cons, List.map_cons, List.flatten_cons, ih, hg.1 t ((tableOf_some read f t).1 e)]

theorem gives_exists (read : PyStr → Except PyErr Table) (f : PyStr) : ∃ rows, Gives read f rows := by
  by_cases h : ∃ t, Uses read f t
  · obtain ⟨t, ht⟩ := h
    exact ⟨t.rows, fun t' h' => by rw [uses_unique ht h'], fun h' => absurd ⟨t, ht⟩ h'⟩
  · exact ⟨[], fun t ht => absurd ⟨t, ht⟩ h, fun _ => rfl⟩

/-! ## The run -/

section run

variable (int? : PyStr → Option ℤ) (read : PyStr → Except PyErr Table) (stamp : PyStr → Except PyErr PyStr) (sort : List Row → List Row) (a : Args)

theorem script_readable (files : List PyStr) (h : Readable read files) (hs : Orders sort) :
    script int? read stamp sort a files = finish int? stamp a (allNames read files) (sort (allRows read files)) := by
  unfold script
  rw [(load_iff read files _).2 ⟨h, rfl⟩]
  show (stack (files.filterMap (tableOf read)) >>= _) = _
  by_cases he : files.filterMap (tableOf read) = []
  · have : allRows read files = [] := by
      unfold allRows
      rw [he]
      rfl
    rw [this, (hs []).1.eq_nil]
    unfold stack
    rw [if_pos he]
    rfl
  · unfold stack
    rw [if_neg he]
    rfl

theorem script_ok_readable (files : List PyStr) (o : Out) (h : script int? read stamp sort a files = .ok o) : Readable read files := by
  unfold script at h
  rw [bind_iff] at h
  obtain ⟨ts, h1, _⟩ := h
  exact ((load_iff read files ts).1 h1).1

theorem finish_iff (names : List PyStr) (l : List Row) (o : Out) :
    finish int? stamp a names l = .ok o ↔ ∃ r rs s, l = r :: rs ∧ stamp ((rs.map Row.analysis).foldl min r.analysis) = .ok s ∧
      (if a.skipPass then o.passFail = none else ∃ b, passFail int? a s names r rs = .ok b ∧ o.passFail = some b) ∧
      (if a.skipBest then o.jobs = [] else jobs a ⟨names, r :: rs⟩ = .ok o.jobs) := by
  rcases l with _ | ⟨r, rs⟩
  · constructor
    · intro h; cases h
    · rintro ⟨r, rs, s, h, _⟩; cases h
  · unfold finish
    rw [bind_iff]
    constructor
    · rintro ⟨s, hs, h⟩
      rw [bind_iff] at h
      obtain ⟨pf, hpf, h⟩ := h
      rw [bind_iff] at h
      obtain ⟨js, hjs, h⟩ := h
      obtain rfl := Except.ok.inj h
      refine ⟨r, rs, s, rfl, hs, ?_, ?_⟩
      · split_ifs at hpf ⊢
        · exact (Except.ok.inj hpf).symm
        · obtain ⟨b, hb, e⟩ := (map_ok _ _ _).1 hpf
          exact ⟨b, hb, e.symm⟩
      · split_ifs at hjs ⊢
        · exact (Except.ok.inj hjs).symm
        · exact hjs
    · rintro ⟨r', rs', s, e, hs, hpf, hjs⟩
      obtain ⟨rfl, rfl⟩ := List.cons.inj e
      refine ⟨s, hs, ?_⟩
      rw [bind_iff]
      refine ⟨o.passFail, ?_, ?_⟩
      · split_ifs at hpf ⊢
        · rw [hpf]
        · obtain ⟨b, hb, e⟩ := hpf
          rw [hb, e]
          rfl
      · rw [bind_iff]
        refine ⟨o.jobs, ?_, rfl⟩
        split_ifs at hjs ⊢
        · rw [hjs]
        · exact hjs

/-! ## The plots -/

theorem mem_posids (l : List Row) (p : PyStr) : p ∈ posids l ↔ ∃ r ∈ l, r.posid = p := by
  simp [posids]

theorem posids_lt (l : List Row) : (posids l).Pairwise (· < ·) := List.sortedLT_iff_pairwise.1 (Finset.sortedLT_sort _)

theorem posids_congr {l m : List Row} (h : ∀ r, r ∈ l ↔ r ∈ m) : posids l = posids m := by
  unfold posids
  rw [toFinset_congr _ h]

/-- The columns of the parameters written next to the dynamic fit. -/
def StaticsThere (names : List PyStr) : Prop :=
  ∀ k ∈ ["LENGTH_R1_DYNAMIC".toList, "LENGTH_R2_DYNAMIC".toList, "OFFSET_X_DYNAMIC".toList, "OFFSET_Y_DYNAMIC".toList, "OFFSET_T_DYNAMIC".toList, "OFFSET_P_DYNAMIC".toList],
    k ∈ names

theorem staticKeys_mem (names : List PyStr) : StaticsThere names ↔ ∀ k ∈ staticKeys, k ++ "_DYNAMIC".toList ∈ names := by
  have h1 : ∀ k ∈ staticKeys, k ++ "_DYNAMIC".toList ∈
      ["LENGTH_R1_DYNAMIC".toList, "LENGTH_R2_DYNAMIC".toList, "OFFSET_X_DYNAMIC".toList, "OFFSET_Y_DYNAMIC".toList, "OFFSET_T_DYNAMIC".toList, "OFFSET_P_DYNAMIC".toList] := by decide
  have h2 : ∀ k' ∈ ["LENGTH_R1_DYNAMIC".toList, "LENGTH_R2_DYNAMIC".toList, "OFFSET_X_DYNAMIC".toList, "OFFSET_Y_DYNAMIC".toList, "OFFSET_T_DYNAMIC".toList, "OFFSET_P_DYNAMIC".toList],
      ∃ k ∈ staticKeys, k' = k ++ "_DYNAMIC".toList := by decide
  constructor
  · intro h k hk
    exact h _ (h1 k hk)
  · intro h k' hk'
    obtain ⟨k, hk, e⟩ := h2 k' hk'
    rw [e]
    exact h k hk

theorem statics_ok (names : List PyStr) (r : Row) (h : StaticsThere names) :
    statics names r = .ok (staticKeys.map fun k => (k, r.other (k ++ "_DYNAMIC".toList))) := by
  unfold statics
  rw [mapM_iff, List.forall₂_map_right_iff, List.forall₂_same]
  intro k hk
  rw [if_pos ((staticKeys_mem names).1 h k hk)]

theorem statics_error (names : List PyStr) (r : Row) (h : ¬ StaticsThere names) : statics names r = .error .keyError := by
  rw [staticKeys_mem] at h
  unfold statics
  generalize staticKeys = l at h ⊢
  generalize ("_DYNAMIC".toList : PyStr) = u at h ⊢
  induction l with
  | nil => exact absurd (fun k hk => absurd hk (by simp)) h
  | cons k l ih =>
    rw [List.mapM_cons]
    by_cases hk : k ++ u ∈ names
    · rw [if_pos hk]
      show (_ >>= fun x => _) = _
      rw [ih (fun h' => h (by simpa using ⟨hk, h'⟩))]
      rfl
    · rw [if_neg hk]
      rfl

/-- A job as expected, of the rows `l`. -/
def IsJob (outdir : PyStr) (l : List Row) (p : PyStr) (j : Job) : Prop :=
  j.posid = p ∧ j.rows = l.filter (fun r => r.posid = p) ∧ j.path = join outdir (p ++ "_paramfits.png".toList) ∧
    ∃ r rs, j.rows = r :: rs ∧ j.statics = staticKeys.map fun k => (k, r.other (k ++ "_DYNAMIC".toList))

theorem job_iff (outdir : PyStr) (names : List PyStr) (l : List Row) (p : PyStr) (j : Job) :
    job outdir ⟨names, l⟩ p = .ok j ↔ StaticsThere names ∧ IsJob outdir l p j := by
  have hs : p ++ "_paramfits".toList ++ ".png".toList = p ++ "_paramfits.png".toList := by
    rw [List.append_assoc]
    rfl
  unfold job IsJob
  dsimp only
  generalize l.filter (fun r => decide (r.posid = p)) = q
  rcases q with _ | ⟨r, rs⟩
  · constructor
    · intro h; cases h
    · rintro ⟨_, _, h, _, r, rs, h', _⟩
      rw [h] at h'
      cases h'
  · dsimp only
    rw [bind_iff, hs]
    constructor
    · rintro ⟨st, h1, h2⟩
      obtain rfl := Except.ok.inj h2
      by_cases hn : StaticsThere names
      · rw [statics_ok names r hn] at h1
        exact ⟨hn, rfl, rfl, rfl, r, rs, rfl, (Except.ok.inj h1).symm⟩
      · rw [statics_error names r hn] at h1
        cases h1
    · rintro ⟨hn, h1, h2, h3, r', rs', h4, h5⟩
      refine ⟨_, statics_ok names r hn, ?_⟩
      rw [h2] at h4
      obtain ⟨rfl, rfl⟩ := List.cons.inj h4
      obtain ⟨j1, j2, j3, j4⟩ := j
      dsimp only at h1 h2 h3 h5
      rw [h1, h2, h3, h5]
      rfl

/-- The positioners chosen. -/
def chosen (test : Bool) (l : List Row) : List PyStr := if test then (posids l).take 1 else posids l

theorem jobs_iff (names : List PyStr) (l : List Row) (js : List Job) :
    jobs a ⟨names, l⟩ = .ok js ↔ (∀ n, a.nproc = some n → 1 ≤ n) ∧ List.Forall₂ (fun p j => StaticsThere names ∧ IsJob a.outdir l p j) (chosen a.test l) js := by
  have hf : (fun p j => job a.outdir ⟨names, l⟩ p = .ok j) = fun p j => StaticsThere names ∧ IsJob a.outdir l p j := by
    funext p j
    exact propext (job_iff _ _ _ _ _)
  have hm : (chosen a.test l).mapM (job a.outdir ⟨names, l⟩) = .ok js ↔ List.Forall₂ (fun p j => StaticsThere names ∧ IsJob a.outdir l p j) (chosen a.test l) js := by
    rw [mapM_iff, hf]
  unfold jobs
  show (match a.nproc with
    | some n => if n < 1 then Except.error PyErr.valueError else (chosen a.test l).mapM (job a.outdir ⟨names, l⟩)
    | none => (chosen a.test l).mapM (job a.outdir ⟨names, l⟩)) = .ok js ↔ _
  rcases e : a.nproc with _ | n
  · dsimp only
    rw [hm]
    simp
  · dsimp only
    by_cases hn : n < 1
    · rw [if_pos hn]
      constructor
      · intro h; cases h
      · rintro ⟨h, _⟩
        exact absurd (h n rfl) (by omega)
    · rw [if_neg hn, hm]
      constructor
      · intro h
        exact ⟨fun m hm => by rw [← Option.some.inj hm]; omega, h⟩
      · exact fun h => h.2

theorem mem_chosen (test : Bool) (l : List Row) (p : PyStr) :
    p ∈ chosen test l ↔ (∃ r ∈ l, r.posid = p) ∧ (test = true → ∀ r ∈ l, p ≤ r.posid) := by
  have hm := mem_posids l
  have hs := posids_lt l
  unfold chosen
  split_ifs with ht
  · rcases e : posids l with _ | ⟨q, qs⟩
    · rw [e] at hm
      simp only [List.take_nil, List.not_mem_nil, false_iff]
      rintro ⟨h, _⟩
      exact absurd ((hm p).2 h) (by simp)
    · rw [e] at hm hs
      rw [List.pairwise_cons] at hs
      simp only [List.take_succ_cons, List.take_zero, List.mem_singleton]
      constructor
      · rintro rfl
        refine ⟨(hm p).1 (by simp), fun _ r hr => ?_⟩
        rcases List.mem_cons.1 ((hm r.posid).2 ⟨r, hr, rfl⟩) with h | h
        · exact h.ge
        · exact (hs.1 _ h).le
      · rintro ⟨h1, h2⟩
        rcases List.mem_cons.1 ((hm p).2 h1) with h | h
        · exact h
        · obtain ⟨r, hr, e'⟩ := (hm q).1 (by simp)
          exact absurd (h2 ht r hr) (by rw [e']; exact not_le.2 (hs.1 _ h))
  · rw [hm]
    exact ⟨fun h => ⟨h, fun h' => absurd h' ht⟩, fun h => h.1⟩

theorem chosen_lt (test : Bool) (l : List Row) : (chosen test l).Pairwise (· < ·) := by
  unfold chosen
  split_ifs
  · exact (posids_lt l).sublist (List.take_sublist _ _)
  · exact posids_lt l

theorem jobs_posids {names : List PyStr} {l : List Row} {ps : List PyStr} {js : List Job} {outdir : PyStr}
    (h : List.Forall₂ (fun p j => StaticsThere names ∧ IsJob outdir l p j) ps js) : js.map Job.posid = ps := by
  induction h with
  | nil => rfl
  | cons h _ ih => rw [List.map_cons, ih, h.2.1]

theorem join_inj (d x y : PyStr) (h : join d x = join d y) : x = y := by
  unfold join at h
  rcases e : d.getLast? with _ | c
  · rw [e] at h
    exact h
  · rw [e] at h
    dsimp only at h
    split_ifs at h
    · exact List.append_cancel_left h
    · exact (List.cons.inj (List.append_cancel_left h)).2

theorem join_dir (d x : PyStr) (u : PyStr) (c : Char) (hd : d = u ++ [c]) (hc : c ≠ '/') : join d x = d ++ '/' :: x := by
  unfold join
  rw [hd, List.getLast?_concat]
  dsimp only
  rw [if_neg hc]

/-- **C119** Plots of single positioners: exactly one for every positioner of the files used (with `--test_mode` for the first in alphabetical order only), in alphabetical order and in images of different names.
Each shows exactly the rows of its positioner, in order of their dates and as often as they are in the files; the parameters written on it are those of the earliest row. -/
theorem C119_jobs (hs : Orders sort) (files : List PyStr) (o : Out) (h : script int? read stamp sort a files = .ok o) (hb : a.skipBest = false) :
    (o.jobs.map Job.posid).Pairwise (· < ·) ∧ (o.jobs.map Job.path).Nodup ∧
    (∀ p, p ∈ o.jobs.map Job.posid ↔ (∃ r, UsedRow read files r ∧ r.posid = p) ∧ (a.test = true → ∀ r, UsedRow read files r → p ≤ r.posid)) ∧
    ∀ j ∈ o.jobs, j.path = join a.outdir (j.posid ++ "_paramfits.png".toList) ∧
      (∀ parts, List.Forall₂ (Gives read) files parts → j.rows.Perm (parts.flatten.filter fun r => r.posid = j.posid)) ∧
      j.rows.Pairwise (fun x y => x.date ≤ y.date) ∧
      ∃ r rs, j.rows = r :: rs ∧ ∀ k v, (k, v) ∈ j.statics ↔
        k ∈ ["LENGTH_R1".toList, "LENGTH_R2".toList, "OFFSET_X".toList, "OFFSET_Y".toList, "OFFSET_T".toList, "OFFSET_P".toList] ∧ v = r.other (k ++ "_DYNAMIC".toList) := by
  have hr := script_ok_readable int? read stamp sort a files o h
  rw [script_readable int? read stamp sort a files hr hs, finish_iff] at h
  obtain ⟨r, rs, s, hl, _, _, hj⟩ := h
  obtain ⟨hp, ho⟩ := hs (allRows read files)
  rw [hl] at hp ho
  rw [hb, if_neg (by simp), jobs_iff] at hj
  have hj := hj.2
  have hpos := jobs_posids hj
  have hmem : ∀ x, x ∈ r :: rs ↔ UsedRow read files x := fun x => (hp.mem_iff).trans (mem_allRows read files x)
  have hjob : ∀ j ∈ o.jobs, IsJob a.outdir (r :: rs) j.posid j := by
    clear hpos
    generalize chosen a.test (r :: rs) = ps at hj
    generalize o.jobs = js at hj
    induction hj with
    | nil => simp
    | cons h _ ih =>
      intro j hj
      rcases List.mem_cons.1 hj with rfl | hj
      · rw [h.2.1]
        exact h.2
      · exact ih j hj
  refine ⟨?_, ?_, ?_, ?_⟩
  · rw [hpos]
    exact chosen_lt _ _
  · have hn : (o.jobs.map Job.posid).Nodup := by
      rw [hpos]
      exact (chosen_lt _ _).imp (fun h => ne_of_lt h)
    have hpath : o.jobs.map Job.path = (o.jobs.map Job.posid).map fun p => join a.outdir (p ++ "_paramfits.png".toList) := by
      rw [List.map_map]
      exact List.map_congr_left fun j hj => (hjob j hj).2.2.1
    rw [hpath]
    exact hn.map fun x y e => List.append_cancel_right (join_inj _ _ _ e)
  · intro p
    rw [hpos, mem_chosen]
    simp only [hmem]
  · intro j hj
    obtain ⟨_, h2, h3, r', rs', h4, h5⟩ := hjob j hj
    refine ⟨h3, ?_, ?_, r', rs', h4, ?_⟩
    · intro parts hg
      rw [h2, gives_flatten read files parts hg]
      exact hp.filter _
    · rw [h2]
      have hq : ((r :: rs).filter fun r => decide (r.posid = j.posid)).Pairwise fun x y => x.posid < y.posid ∨ x.posid = y.posid ∧ x.date ≤ y.date := ho.filter _
      refine hq.imp_of_mem ?_
      intro x y hx hy hxy
      have hx := of_decide_eq_true (List.mem_filter.1 hx).2
      have hy := of_decide_eq_true (List.mem_filter.1 hy).2
      rcases hxy with h | h
      · exact absurd (hx.trans hy.symm) (ne_of_lt h)
      · exact h.2
    · intro k v
      have hk : k ∈ ["LENGTH_R1".toList, "LENGTH_R2".toList, "OFFSET_X".toList, "OFFSET_Y".toList, "OFFSET_T".toList, "OFFSET_P".toList] ↔ k ∈ staticKeys := by
        have h1 : ∀ k ∈ ["LENGTH_R1".toList, "LENGTH_R2".toList, "OFFSET_X".toList, "OFFSET_Y".toList, "OFFSET_T".toList, "OFFSET_P".toList], k ∈ staticKeys := by decide
        have h2 : ∀ k ∈ staticKeys, k ∈ ["LENGTH_R1".toList, "LENGTH_R2".toList, "OFFSET_X".toList, "OFFSET_Y".toList, "OFFSET_T".toList, "OFFSET_P".toList] := by decide
        exact ⟨h1 k, h2 k⟩
      rw [hk, h5, List.mem_map]
      constructor
      · rintro ⟨k', hk', e⟩
        obtain ⟨rfl, rfl⟩ := Prod.mk.inj e
        exact ⟨hk', rfl⟩
      · rintro ⟨hk', rfl⟩
        exact ⟨k, hk', rfl⟩

/-! ## The counts -/

theorem foldl_min {α : Type} [LinearOrder α] (x : α) (l : List α) : (∀ y ∈ x :: l, l.foldl min x ≤ y) ∧ l.foldl min x ∈ x :: l := by
  induction l generalizing x with
  | nil => simp
  | cons y l ih =>
    obtain ⟨h1, h2⟩ := ih (min x y)
    rw [List.foldl_cons]
    constructor
    · intro z hz
      have h0 := h1 (min x y) (by simp)
      rcases List.mem_cons.1 hz with rfl | hz
      · exact h0.trans (min_le_left _ _)
      · rcases List.mem_cons.1 hz with rfl | hz
        · exact h0.trans (min_le_right _ _)
        · exact h1 z (List.mem_cons_of_mem _ hz)
    · rcases List.mem_cons.1 h2 with h | h
      · rw [h]
        rcases min_choice x y with e | e <;> rw [e] <;> simp
      · exact List.mem_cons_of_mem _ (List.mem_cons_of_mem _ h)

/-- The least date of analysis of the files used. -/
def Earliest (files : List PyStr) (d : PyStr) : Prop := (∃ r, UsedRow read files r ∧ r.analysis = d) ∧ ∀ r, UsedRow read files r → d ≤ r.analysis

theorem earliest_iff (files : List PyStr) (r : Row) (rs : List Row) (h : ∀ x, x ∈ r :: rs ↔ UsedRow read files x) (d : PyStr) :
    Earliest read files d ↔ d = (rs.map Row.analysis).foldl min r.analysis := by
  obtain ⟨h1, h2⟩ := foldl_min r.analysis (rs.map Row.analysis)
  rw [← List.map_cons (f := Row.analysis)] at h1 h2
  obtain ⟨x, hx, e⟩ := List.mem_map.1 h2
  constructor
  · rintro ⟨⟨y, hy, rfl⟩, h4⟩
    exact le_antisymm (e ▸ h4 x ((h x).1 hx)) (h1 _ (List.mem_map_of_mem ((h y).2 hy)))
  · rintro rfl
    exact ⟨⟨x, (h x).1 hx, e⟩, fun y hy => h1 _ (List.mem_map_of_mem ((h y).2 hy))⟩

/-- The row for the counts. -/
def counted (dynamic : Bool) (r : Row) : Model.BinErrors.Row PyStr where
  id := r.posid
  date := r.date
  err := bif dynamic then r.errDynamic else r.errStatic

theorem errRow_eq (dynamic : Bool) : errRow dynamic = counted dynamic := by
  funext r
  unfold errRow counted
  cases dynamic <;> rfl

theorem passFail_iff (s : PyStr) (names : List PyStr) (r : Row) (rs : List Row) (pf : PassFail) :
    passFail int? a s names r rs = .ok pf ↔ "DATA_START_DATE_SEC".toList ∈ names ∧ binErrors int? ((r :: rs).map (counted a.dynamic)) a.bins = .ok pf.binned ∧
      pf.pre = join a.outdir (s ++ "_passfail_".toList ++ if a.dynamic then "dynamic".toList else "static".toList) ∧
      pf.points = (greatest r.points (rs.map Row.points), least r.points (rs.map Row.points), (r.points + (rs.map Row.points).sum) / ((rs.map Row.points).length + 1)) := by
  unfold passFail
  rw [bind_iff, errRow_eq]
  constructor
  · rintro ⟨b, hb, h⟩
    dsimp only at h
    split_ifs at h with hn
    all_goals (obtain rfl := Except.ok.inj h; exact ⟨hn, hb, by simp [*], rfl⟩)
  · rintro ⟨hn, hb, h1, h2⟩
    refine ⟨_, hb, ?_⟩
    dsimp only
    rw [if_pos hn]
    obtain ⟨p1, p2, p3⟩ := pf
    dsimp only at h1 h2
    rw [h1, h2]
    rfl

/-- **C119** The counts: those of `bin_errors` for the rows of the files used (in any order, repeated or not), with the errors of the static or the dynamic fit. In the title, the greatest and the least number of
points are those of the rows used and the mean is that of all rows, as often as they are in the files. The names of the files begin with the earliest date of analysis. -/
theorem C119_counts (hs : Orders sort) (files : List PyStr) (o : Out) (h : script int? read stamp sort a files = .ok o) (hb : a.skipPass = false) :
    ∃ pf, o.passFail = some pf ∧
      (∀ l : List Row, (∀ r, r ∈ l ↔ UsedRow read files r) → binErrors int? (l.map (counted a.dynamic)) a.bins = .ok pf.binned) ∧
      (∃ d s, Earliest read files d ∧ stamp d = .ok s ∧ pf.pre = join a.outdir (s ++ if a.dynamic then "_passfail_dynamic".toList else "_passfail_static".toList)) ∧
      (∀ r, UsedRow read files r → pf.points.2.1 ≤ r.points ∧ r.points ≤ pf.points.1) ∧
      (∃ r, UsedRow read files r ∧ r.points = pf.points.1) ∧ (∃ r, UsedRow read files r ∧ r.points = pf.points.2.1) ∧
      ∀ parts, List.Forall₂ (Gives read) files parts → pf.points.2.2 = (parts.flatten.map Row.points).sum / parts.flatten.length := by
  have hr := script_ok_readable int? read stamp sort a files o h
  rw [script_readable int? read stamp sort a files hr hs, finish_iff] at h
  obtain ⟨r, rs, s, hl, hst, hpf, _⟩ := h
  obtain ⟨hp, ho⟩ := hs (allRows read files)
  rw [hl] at hp ho
  have hmem : ∀ x, x ∈ r :: rs ↔ UsedRow read files x := fun x => (hp.mem_iff).trans (mem_allRows read files x)
  rw [hb, if_neg (by simp)] at hpf
  obtain ⟨pf, hpf, e⟩ := hpf
  obtain ⟨_, h1, h2, h3⟩ := (passFail_iff int? a s _ r rs pf).1 hpf
  have g1 := Props.BinErrors.greatest_spec r.points (rs.map Row.points)
  have g2 := Props.BinErrors.least_spec r.points (rs.map Row.points)
  rw [← List.map_cons (f := Row.points)] at g1 g2
  refine ⟨pf, e, ?_, ⟨_, s, (earliest_iff read files r rs hmem _).2 rfl, hst, ?_⟩, ?_, ?_, ?_, ?_⟩
  · intro l hl'
    rw [C119_bins_set int? _ ((r :: rs).map (counted a.dynamic)), h1]
    intro x
    simp only [List.mem_map, hl', hmem]
  · rw [h2]
    cases a.dynamic
    · simp only [Bool.false_eq_true, if_false, List.append_assoc]
      rfl
    · simp only [if_true, List.append_assoc]
      rfl
  · intro x hx
    rw [h3]
    have := List.mem_map_of_mem (f := Row.points) ((hmem x).2 hx)
    exact ⟨g2.1 _ this, g1.1 _ this⟩
  · obtain ⟨x, hx, e'⟩ := List.mem_map.1 g1.2
    exact ⟨x, (hmem x).1 hx, by rw [e', h3]⟩
  · obtain ⟨x, hx, e'⟩ := List.mem_map.1 g2.2
    exact ⟨x, (hmem x).1 hx, by rw [e', h3]⟩
  · intro parts hg
    rw [gives_flatten read files parts hg, h3, ← hp.length_eq, ← (hp.map Row.points).sum_eq]
    simp

/-! ## Success and failure -/

theorem usedName_iff (files : List PyStr) : StaticsThere (allNames read files) ↔
    ∀ k ∈ ["LENGTH_R1_DYNAMIC".toList, "LENGTH_R2_DYNAMIC".toList, "OFFSET_X_DYNAMIC".toList, "OFFSET_Y_DYNAMIC".toList, "OFFSET_T_DYNAMIC".toList, "OFFSET_P_DYNAMIC".toList],
      UsedName read files k := by
  unfold StaticsThere
  simp only [mem_allNames]

theorem forall₂_jobs {names : List PyStr} (hn : StaticsThere names) (outdir : PyStr) (l : List Row) (ps : List PyStr) (hp : ∀ p ∈ ps, ∃ r ∈ l, r.posid = p) :
    ∃ js, List.Forall₂ (fun p j => StaticsThere names ∧ IsJob outdir l p j) ps js := by
  induction ps with
  | nil => exact ⟨[], List.Forall₂.nil⟩
  | cons p ps ih =>
    obtain ⟨js, h⟩ := ih fun q hq => hp q (List.mem_cons_of_mem _ hq)
    obtain ⟨r, hr, e⟩ := hp p (by simp)
    have hm : r ∈ l.filter (fun r => r.posid = p) := List.mem_filter.2 ⟨hr, decide_eq_true e⟩
    rcases e' : l.filter (fun r => decide (r.posid = p)) with _ | ⟨q, qs⟩
    · rw [e'] at hm
      exact absurd hm (by simp)
    · exact ⟨⟨p, q :: qs, join outdir (p ++ "_paramfits.png".toList), staticKeys.map fun k => (k, q.other (k ++ "_DYNAMIC".toList))⟩ :: js,
        List.Forall₂.cons ⟨hn, rfl, e'.symm, rfl, q, qs, rfl, rfl⟩ h⟩

/-- The exact conditions of success, for sorted rows. -/
theorem finish_ok (names : List PyStr) (r : Row) (rs : List Row) :
    (∃ o, finish int? stamp a names (r :: rs) = .ok o) ↔ (∃ s, stamp ((rs.map Row.analysis).foldl min r.analysis) = .ok s) ∧
      (a.skipPass = false → "DATA_START_DATE_SEC".toList ∈ names ∧ ∃ b, binErrors int? ((r :: rs).map (counted a.dynamic)) a.bins = .ok b) ∧
      (a.skipBest = false → (∀ n, a.nproc = some n → 1 ≤ n) ∧ StaticsThere names) := by
  constructor
  · rintro ⟨o, h⟩
    rw [finish_iff] at h
    obtain ⟨r', rs', s, e, h1, h2, h3⟩ := h
    obtain ⟨rfl, rfl⟩ := List.cons.inj e
    refine ⟨⟨s, h1⟩, ?_, ?_⟩
    · intro hf
      rw [hf, if_neg (by simp)] at h2
      obtain ⟨b, hb, _⟩ := h2
      rw [passFail_iff] at hb
      exact ⟨hb.1, _, hb.2.1⟩
    · intro hf
      rw [hf, if_neg (by simp), jobs_iff] at h3
      refine ⟨h3.1, ?_⟩
      have hne : chosen a.test (r :: rs) ≠ [] := by
        have hm : ∃ p, p ∈ posids (r :: rs) := ⟨r.posid, (mem_posids _ _).2 ⟨r, by simp, rfl⟩⟩
        obtain ⟨p, hp⟩ := hm
        unfold chosen
        rcases e : posids (r :: rs) with _ | ⟨q, qs⟩
        · rw [e] at hp
          exact absurd hp (by simp)
        · split_ifs <;> simp
      have h4 := h3.2
      rcases e : chosen a.test (r :: rs) with _ | ⟨p, ps⟩
      · exact absurd e hne
      · rw [e] at h4
        generalize o.jobs = js at h4
        cases h4 with
        | cons h _ => exact h.1
  · rintro ⟨⟨s, hs⟩, h2, h3⟩
    have hpf : ∃ pf, if a.skipPass then pf = none else ∃ b, passFail int? a s names r rs = .ok b ∧ pf = some b := by
      rcases e : a.skipPass with _ | _
      · obtain ⟨hn, b, hb⟩ := h2 e
        have hx := (passFail_iff int? a s names r rs ⟨_, b, _⟩).2 ⟨hn, hb, rfl, rfl⟩
        exact ⟨some _, by rw [if_neg (by simp)]; exact ⟨_, hx, rfl⟩⟩
      · exact ⟨none, by rw [if_pos rfl]⟩
    have hjs : ∃ js, if a.skipBest then js = [] else jobs a ⟨names, r :: rs⟩ = .ok js := by
      rcases e : a.skipBest with _ | _
      · obtain ⟨hn, hst⟩ := h3 e
        obtain ⟨js, hj⟩ := forall₂_jobs hst a.outdir (r :: rs) (chosen a.test (r :: rs)) fun p hp => ((mem_chosen _ _ _).1 hp).1
        refine ⟨js, ?_⟩
        rw [if_neg (by simp), jobs_iff]
        exact ⟨hn, hj⟩
      · exact ⟨[], by rw [if_pos rfl]⟩
    obtain ⟨pf, hpf⟩ := hpf
    obtain ⟨js, hjs⟩ := hjs
    exact ⟨⟨pf, js⟩, (finish_iff int? stamp a names (r :: rs) ⟨pf, js⟩).2 ⟨r, rs, s, rfl, hs, hpf, hjs⟩⟩

/-- **C119** When the run succeeds, with thresholds given as a sequence of at least two numbers (as by default): all files with `csv` in their extension can be read, a file used has a row, the earliest date of analysis is a date,
for the counts a file used has the column DATA_START_DATE_SEC, and for the plots files used have the six columns of static parameters of the dynamic fit and the number of processes is positive. -/
theorem C119_when (hs : Orders sort) (files : List PyStr) (x y : WithTop ℝ) (l : List (WithTop ℝ)) (hbins : a.bins = .edges (x :: y :: l)) :
    (∃ o, script int? read stamp sort a files = .ok o) ↔ Readable read files ∧ (∃ d s, Earliest read files d ∧ stamp d = .ok s) ∧
      (a.skipPass = false → UsedName read files "DATA_START_DATE_SEC".toList) ∧
      (a.skipBest = false → (∀ n, a.nproc = some n → 1 ≤ n) ∧
        ∀ k ∈ ["LENGTH_R1_DYNAMIC".toList, "LENGTH_R2_DYNAMIC".toList, "OFFSET_X_DYNAMIC".toList, "OFFSET_Y_DYNAMIC".toList, "OFFSET_T_DYNAMIC".toList, "OFFSET_P_DYNAMIC".toList],
          UsedName read files k) := by
  by_cases hr : Readable read files
  swap
  · constructor
    · rintro ⟨o, h⟩
      exact absurd (script_ok_readable int? read stamp sort a files o h) hr
    · exact fun h => absurd h.1 hr
  rw [script_readable int? read stamp sort a files hr hs]
  obtain ⟨hp, _⟩ := hs (allRows read files)
  have hmem : ∀ z, z ∈ sort (allRows read files) ↔ UsedRow read files z := fun z => (hp.mem_iff).trans (mem_allRows read files z)
  rcases e : sort (allRows read files) with _ | ⟨r, rs⟩
  · constructor
    · rintro ⟨o, h⟩; cases h
    · rintro ⟨_, ⟨d, s, ⟨⟨z, hz, _⟩, _⟩, _⟩, _⟩
      rw [e] at hmem
      exact absurd ((hmem z).2 hz) (by simp)
  · rw [e] at hmem
    rw [finish_ok, usedName_iff, mem_allNames]
    have hE : (∃ s, stamp ((rs.map Row.analysis).foldl min r.analysis) = .ok s) ↔ ∃ d s, Earliest read files d ∧ stamp d = .ok s := by
      simp only [earliest_iff read files r rs hmem]
      constructor
      · rintro ⟨s, h⟩
        exact ⟨_, s, rfl, h⟩
      · rintro ⟨d, s, rfl, h⟩
        exact ⟨s, h⟩
    rw [hE]
    have hb : ∃ b, binErrors int? ((r :: rs).map (counted a.dynamic)) a.bins = .ok b := by
      rw [hbins]
      obtain ⟨b, hb, _⟩ := Props.BinErrors.C113_edges int? ((r :: rs).map (counted a.dynamic)) x (y :: l) (by simp) (by simp)
      exact ⟨b, hb⟩
    constructor
    · rintro ⟨h1, h2, h3⟩
      exact ⟨hr, h1, fun h => (h2 h).1, h3⟩
    · rintro ⟨_, h1, h2, h3⟩
      exact ⟨h1, fun h => ⟨h2 h, hb⟩, h3⟩

/-- **C119** The order of the files, and files given several times, change neither the positioners plotted nor the names of images nor the counts. -/
theorem C119_order (hs : Orders sort) (files files' : List PyStr) (hf : ∀ f, f ∈ files ↔ f ∈ files') (o : Out) (h : script int? read stamp sort a files = .ok o) :
    ∃ o', script int? read stamp sort a files' = .ok o' ∧ o'.jobs.map Job.posid = o.jobs.map Job.posid ∧ o'.jobs.map Job.path = o.jobs.map Job.path ∧
      o'.passFail.map PassFail.pre = o.passFail.map PassFail.pre ∧ o'.passFail.map PassFail.binned = o.passFail.map PassFail.binned := by
  have hr := script_ok_readable int? read stamp sort a files o h
  have hr' : Readable read files' := fun f hf' => hr f ((hf f).2 hf')
  rw [script_readable int? read stamp sort a files hr hs] at h
  rw [script_readable int? read stamp sort a files' hr' hs]
  have hmem : ∀ z, z ∈ sort (allRows read files) ↔ UsedRow read files z := fun z => ((hs _).1.mem_iff).trans (mem_allRows read files z)
  have hmem' : ∀ z, z ∈ sort (allRows read files') ↔ UsedRow read files' z := fun z => ((hs _).1.mem_iff).trans (mem_allRows read files' z)
  have hU : ∀ z, UsedRow read files z ↔ UsedRow read files' z := by
    intro z
    unfold UsedRow
    simp only [hf]
  have hN : ∀ k, k ∈ allNames read files ↔ k ∈ allNames read files' := by
    intro k
    rw [mem_allNames, mem_allNames]
    unfold UsedName
    simp only [hf]
  have hS : StaticsThere (allNames read files) ↔ StaticsThere (allNames read files') := by
    unfold StaticsThere
    simp only [hN]
  have hok := h
  rw [finish_iff] at h
  obtain ⟨r, rs, s, e, h1, h2, h3⟩ := h
  rw [e] at hmem hok
  rcases e' : sort (allRows read files') with _ | ⟨r', rs'⟩
  · rw [e'] at hmem'
    exact absurd ((hmem' r).2 ((hU r).1 ((hmem r).1 (by simp)))) (by simp)
  rw [e'] at hmem'
  have hrows : ∀ z, z ∈ r :: rs ↔ z ∈ r' :: rs' := fun z => (hmem z).trans ((hU z).trans (hmem' z).symm)
  have hA : (rs'.map Row.analysis).foldl min r'.analysis = (rs.map Row.analysis).foldl min r.analysis :=
    (earliest_iff read files r rs hmem _).1 ((earliest_iff read files r' rs' (fun z => (hrows z).symm.trans (hmem z)) _).2 rfl)
  have hB : binErrors int? ((r' :: rs').map (counted a.dynamic)) a.bins = binErrors int? ((r :: rs).map (counted a.dynamic)) a.bins := by
    apply C119_bins_set
    intro z
    simp only [List.mem_map, hrows]
  obtain ⟨g1, g2, g3⟩ := (finish_ok int? stamp a _ r rs).1 ⟨o, hok⟩
  obtain ⟨o', ho'⟩ := (finish_ok int? stamp a (allNames read files') r' rs').2
    ⟨by rw [hA]; exact g1, fun hf => ⟨(hN _).1 (g2 hf).1, by rw [hB]; exact (g2 hf).2⟩, fun hf => ⟨(g3 hf).1, hS.1 (g3 hf).2⟩⟩
  refine ⟨o', ho', ?_⟩
  rw [finish_iff] at ho'
  obtain ⟨q, qs, s', e2, k1, k2, k3⟩ := ho'
  obtain ⟨rfl, rfl⟩ := List.cons.inj e2
  rw [hA, h1] at k1
  obtain rfl := Except.ok.inj k1
  have hC : chosen a.test (r' :: rs') = chosen a.test (r :: rs) := by
    unfold chosen
    rw [posids_congr hrows]
  have hpath : ∀ {names : List PyStr} {l : List Row} {ps : List PyStr} {js : List Job} {outdir : PyStr}
      (_ : List.Forall₂ (fun p j => StaticsThere names ∧ IsJob outdir l p j) ps js), js.map Job.path = ps.map fun p => join outdir (p ++ "_paramfits.png".toList) := by
    intro names l ps js outdir h
    induction h with
    | nil => rfl
    | cons h _ ih => rw [List.map_cons, List.map_cons, ih, h.2.2.2.1]
  have hJ : o'.jobs.map Job.posid = o.jobs.map Job.posid ∧ o'.jobs.map Job.path = o.jobs.map Job.path := by
    split_ifs at h3 k3
    · rw [h3, k3]
      exact ⟨rfl, rfl⟩
    · rw [jobs_iff] at h3 k3
      rw [jobs_posids h3.2, jobs_posids k3.2, hpath h3.2, hpath k3.2, hC]
      exact ⟨rfl, rfl⟩
  refine ⟨hJ.1, hJ.2, ?_⟩
  split_ifs at h2 k2
  · rw [h2, k2]
    exact ⟨rfl, rfl⟩
  · obtain ⟨b, hb, eb⟩ := h2
    obtain ⟨b', hb', eb'⟩ := k2
    rw [passFail_iff] at hb hb'
    rw [eb, eb']
    have := hb'.2.1
    rw [hB, hb.2.1] at this
    refine ⟨?_, ?_⟩
    · rw [Option.map_some, Option.map_some, hb.2.2.1, hb'.2.2.1]
    · rw [Option.map_some, Option.map_some, Except.ok.inj this]

/-- **C119** A file without `csv` in its extension is ignored, and a file in which one of the columns is missing, as the one written for a failed fit, is read but changes nothing. -/
theorem C119_skipped (pre post : List PyStr) (f : PyStr) (h : ¬ CsvName f ∨ ∃ t, read f = .ok t ∧ ∃ k ∈ needed, k ∉ t.names) :
    script int? read stamp sort a (pre ++ f :: post) = script int? read stamp sort a (pre ++ post) := by
  have hn : tableOf read f = none := by
    refine tableOf_none read f ?_
    rintro ⟨t, h1, h2, h3⟩
    rcases h with h | ⟨t', ht, k, hk, hk'⟩
    · exact h h1
    · obtain rfl := Except.ok.inj (h2.symm.trans ht)
      exact hk' (h3 k hk)
  have hl : load read (pre ++ f :: post) = load read (pre ++ post) := by
    induction pre with
    | nil =>
      rw [List.nil_append, List.nil_append, load]
      by_cases hc : isCsv f = true
      · rw [if_pos hc]
        rcases h with h | ⟨t', ht, k, hk, hk'⟩
        · exact absurd ((isCsv_iff f).1 hc) h
        · have hk2 : ¬ complete t' = true := fun h' => hk' ((complete_iff t').1 h' k hk)
          rw [ht]
          show (load read post >>= fun ts => _) = _
          cases load read post with
          | error e => rfl
          | ok ts =>
            show Except.ok (if complete t' = true then t' :: ts else ts) = _
            rw [if_neg hk2]
      · rw [if_neg hc]
    | cons g pre ih =>
      rw [List.cons_append, List.cons_append, load, load, ih]
  unfold script
  rw [hl]

/-- A table of a failed fit (`write_failed_fit` of fithandler.py) lacks columns. -/
example (rows : List Row) : ∃ k ∈ needed, k ∉ (⟨["ANALYSIS_DATE".toList, "POS_ID".toList, "FLAGS".toList], rows⟩ : Table).names :=
  ⟨"FIT_ERROR_STATIC".toList, by decide, show "FIT_ERROR_STATIC".toList ∉ ["ANALYSIS_DATE".toList, "POS_ID".toList, "FLAGS".toList] by decide⟩

/-- **C119** Without a row in any file used the run ends with a `ValueError`. -/
theorem C119_no_data (hs : Orders sort) (files : List PyStr) (h : Readable read files) (hn : ¬ ∃ r, UsedRow read files r) :
    script int? read stamp sort a files = .error .valueError := by
  rw [script_readable int? read stamp sort a files h hs]
  have : allRows read files = [] := by
    rw [List.eq_nil_iff_forall_not_mem]
    intro r hr
    exact hn ⟨r, (mem_allRows read files r).1 hr⟩
  rw [this, (hs []).1.eq_nil]
  rfl

/-- **C119** (finding) Columns used but not looked for: files with all the columns looked for, but without DATA_START_DATE_SEC, end the run with a `KeyError` when counts are made (after all the work of `bin_errors`);
and without one of the columns of static parameters of the dynamic fit when only the plots are made. -/
theorem C119_unchecked (hs : Orders sort) (files : List PyStr) (hr : Readable read files) (d s : PyStr) (hd : Earliest read files d) (hst : stamp d = .ok s) :
    (∀ x y l, a.bins = .edges (x :: y :: l) → a.skipPass = false → ¬ UsedName read files "DATA_START_DATE_SEC".toList → script int? read stamp sort a files = .error .keyError) ∧
    (a.skipPass = true → a.skipBest = false → (∀ n, a.nproc = some n → 1 ≤ n) → ¬ UsedName read files "LENGTH_R1_DYNAMIC".toList →
      script int? read stamp sort a files = .error .keyError) := by
  rw [script_readable int? read stamp sort a files hr hs]
  have hmem : ∀ z, z ∈ sort (allRows read files) ↔ UsedRow read files z := fun z => ((hs _).1.mem_iff).trans (mem_allRows read files z)
  rcases e : sort (allRows read files) with _ | ⟨r, rs⟩
  · obtain ⟨⟨z, hz, _⟩, _⟩ := hd
    rw [e] at hmem
    exact absurd ((hmem z).2 hz) (by simp)
  rw [e] at hmem
  have hst' : stamp ((rs.map Row.analysis).foldl min r.analysis) = .ok s := by
    rw [← (earliest_iff read files r rs hmem d).1 hd]
    exact hst
  refine ⟨?_, ?_⟩
  · intro x y l hb hp hn
    rw [← mem_allNames] at hn
    obtain ⟨b, hb', _⟩ := Props.BinErrors.C113_edges int? ((r :: rs).map (counted a.dynamic)) x (y :: l) (by simp) (by simp)
    unfold finish
    dsimp only
    rw [hst']
    show ((if a.skipPass = true then Except.ok none else (passFail int? a s (allNames read files) r rs).map some) >>= _) = _
    rw [hp, if_neg (by simp)]
    have : passFail int? a s (allNames read files) r rs = .error .keyError := by
      unfold passFail
      rw [errRow_eq, hb, hb']
      show (if "DATA_START_DATE_SEC".toList ∈ allNames read files then _ else _) = _
      rw [if_neg hn]
    rw [this]
    rfl
  · intro hp hb hnp hn
    rw [← mem_allNames] at hn
    have hS : ¬ StaticsThere (allNames read files) := fun h => hn (h _ (by decide))
    unfold finish
    dsimp only
    rw [hst']
    show ((if a.skipPass = true then Except.ok none else (passFail int? a s (allNames read files) r rs).map some) >>= _) = _
    rw [if_pos hp]
    show ((if a.skipBest = true then Except.ok [] else jobs a ⟨allNames read files, r :: rs⟩) >>= _) = _
    rw [hb, if_neg (by simp)]
    have : jobs a ⟨allNames read files, r :: rs⟩ = .error .keyError := by
      have hm : (chosen a.test (r :: rs)).mapM (job a.outdir ⟨allNames read files, r :: rs⟩) = .error .keyError := by
        have hne : ∃ p ps, chosen a.test (r :: rs) = p :: ps := by
          rcases ec : chosen a.test (r :: rs) with _ | ⟨p, ps⟩
          · exfalso
            have hq := (mem_posids (r :: rs) r.posid).2 ⟨r, by simp, rfl⟩
            unfold chosen at ec
            rcases e3 : posids (r :: rs) with _ | ⟨q, qs⟩
            · rw [e3] at hq
              exact absurd hq (by simp)
            · rw [e3] at ec
              split_ifs at ec <;> simp at ec
          · exact ⟨p, ps, rfl⟩
        obtain ⟨p, ps, ec⟩ := hne
        have hpm : ∃ r' ∈ r :: rs, r'.posid = p := ((mem_chosen a.test (r :: rs) p).1 (by rw [ec]; simp)).1
        obtain ⟨r', hr', e3⟩ := hpm
        have hf : r' ∈ (r :: rs).filter (fun r => r.posid = p) := List.mem_filter.2 ⟨hr', decide_eq_true e3⟩
        have hj : job a.outdir ⟨allNames read files, r :: rs⟩ p = .error .keyError := by
          unfold job
          dsimp only
          generalize (r :: rs).filter (fun r => decide (r.posid = p)) = q at hf
          rcases q with _ | ⟨q, qs⟩
          · exact absurd hf (by simp)
          · dsimp only
            rw [statics_error _ _ hS]
            rfl
        rw [ec, List.mapM_cons, hj]
        rfl
      unfold jobs
      show (match a.nproc with
        | some n => if n < 1 then Except.error PyErr.valueError else (chosen a.test (r :: rs)).mapM (job a.outdir ⟨allNames read files, r :: rs⟩)
        | none => (chosen a.test (r :: rs)).mapM (job a.outdir ⟨allNames read files, r :: rs⟩)) = _
      rw [hm]
      rcases en : a.nproc with _ | n
      · rfl
      · show (if n < 1 then _ else _) = _
        rw [if_neg (by have := hnp n en; omega)]
    rw [this]
    rfl

/-- **C119** (finding) A file given twice, as by two patterns that both match it, counts twice in the mean number of points of the title: with two files of one row each and different numbers of points the mean changes. -/
theorem C119_repeated (hs : Orders sort) (f g : PyStr) (t u : Table) (x y : Row) (hf : Uses read f t) (hg : Uses read g u) (ht : t.rows = [x]) (hu : u.rows = [y]) (hxy : x.points ≠ y.points)
    (hp : a.skipPass = false) (o o' : Out) (h : script int? read stamp sort a [f, g] = .ok o) (h' : script int? read stamp sort a [f, f, g] = .ok o') :
    o.passFail.map (fun p => p.points.2.2) = some ((x.points + y.points) / 2) ∧ o'.passFail.map (fun p => p.points.2.2) = some ((x.points + x.points + y.points) / 3) ∧
    o.passFail.map (fun p => p.points.2.2) ≠ o'.passFail.map (fun p => p.points.2.2) := by
  have gf : Gives read f [x] := ⟨fun t' h => by rw [← uses_unique hf h, ht], fun h => absurd ⟨t, hf⟩ h⟩
  have gg : Gives read g [y] := ⟨fun t' h => by rw [← uses_unique hg h, hu], fun h => absurd ⟨u, hg⟩ h⟩
  obtain ⟨pf, e1, _, _, _, _, _, h1⟩ := C119_counts int? read stamp sort a hs [f, g] o h hp
  obtain ⟨pf', e2, _, _, _, _, _, h2⟩ := C119_counts int? read stamp sort a hs [f, f, g] o' h' hp
  have h1 := h1 [[x], [y]] (.cons gf (.cons gg .nil))
  have h2 := h2 [[x], [x], [y]] (.cons gf (.cons gf (.cons gg .nil)))
  have h1' : pf.points.2.2 = (x.points + y.points) / 2 := by rw [h1]; simp
  have h2' : pf'.points.2.2 = (x.points + x.points + y.points) / 3 := by rw [h2]; simp; ring
  rw [e1, e2, Option.map_some, Option.map_some, h1', h2']
  refine ⟨rfl, rfl, fun e => hxy ?_⟩
  have := Option.some.inj e
  linarith

end run

/-! ## Examples -/

/-- A sort as assumed. -/
theorem orders_exists : ∃ sort, Orders sort := by
  refine ⟨fun l => pySort (fun r : Row => toLex (r.posid, r.date)) l, fun l => ⟨Verif.Lemmas.perm_pySort _ l, ?_⟩⟩
  refine (Verif.Lemmas.sorted_pySort (fun r : Row => toLex (r.posid, r.date)) l).imp ?_
  intro x y h
  exact Prod.Lex.toLex_le_toLex.1 h

example : CsvName "/data/M02012_paramfits.csv".toList :=
  ⟨"M02012_paramfits".toList, "csv".toList, rfl, ⟨'M', by decide, by decide⟩, by decide, List.infix_rfl⟩

/-- A run with two positioners succeeds. -/
example : ∃ (int? : PyStr → Option ℤ) (read : PyStr → Except PyErr Table) (stamp : PyStr → Except PyErr PyStr) (sort : List Row → List Row) (a : Args) (files : List PyStr) (o : Out),
    Orders sort ∧ a.skipBest = false ∧ a.skipPass = false ∧ script int? read stamp sort a files = .ok o := by
  obtain ⟨sort, hs⟩ := orders_exists
  let names := needed ++ ["DATA_START_DATE_SEC".toList, "LENGTH_R1_DYNAMIC".toList, "LENGTH_R2_DYNAMIC".toList, "OFFSET_X_DYNAMIC".toList, "OFFSET_Y_DYNAMIC".toList, "OFFSET_T_DYNAMIC".toList, "OFFSET_P_DYNAMIC".toList]
  let t : Table := ⟨names, [⟨"M2".toList, 1, "2020-01-01".toList, 0, 0, 10, fun _ => some 3⟩, ⟨"M1".toList, 1, "2020-01-01".toList, 0, 0, 12, fun _ => some 3⟩]⟩
  let read : PyStr → Except PyErr Table := fun _ => .ok t
  let a : Args := ⟨"out".toList, none, false, false, false, .edges [0, 1, 2], false⟩
  have hu : Uses read "a.csv".toList t :=
    ⟨⟨"a".toList, "csv".toList, rfl, ⟨'a', by decide, by decide⟩, by decide, List.infix_rfl⟩, rfl, fun k hk => List.mem_append_left _ hk⟩
  have hn : ∀ k ∈ names, UsedName read ["a.csv".toList] k := fun k hk => ⟨_, List.mem_singleton.2 rfl, t, hu, hk⟩
  obtain ⟨o, ho⟩ := (C119_when (fun _ => none) read (fun _ => .ok "2020".toList) sort a hs ["a.csv".toList] 0 1 [2] rfl).2
    ⟨fun f _ _ => ⟨t, rfl⟩, ⟨"2020-01-01".toList, "2020".toList, ⟨⟨_, ⟨_, List.mem_singleton.2 rfl, t, hu, List.mem_cons_self⟩, rfl⟩, by
        rintro r ⟨f, _, t', hu', hr⟩
        obtain rfl := Except.ok.inj hu'.2.1
        rcases List.mem_cons.1 hr with rfl | hr
        · exact le_refl _
        · rw [List.mem_singleton.1 hr]⟩, rfl⟩, fun _ => hn _ (by decide), fun _ => ⟨fun n h => (nomatch h), fun k hk => hn k (List.mem_append_right _ (List.mem_cons_of_mem _ hk))⟩⟩
  exact ⟨_, read, _, sort, a, _, o, hs, rfl, rfl, ho⟩

end Verif.Props.PlotPosparams
