import Verif.Model.FvcJobs
import Verif.Lemmas.Str
import Mathlib.Data.List.Basic

namespace Verif.Props
open Verif.Py Verif.Model.FvcJobs Verif.Lemmas.Str

/-- The images of one line of the input still to be processed. -/
def pendingOf (file : Bool × List Entry) : List PyStr :=
  if file.1 then [] else (file.2.filter fun e => !e.exist).map Entry.name

namespace Fvj

theorem addEntries (s : St) (es : List Entry) :
    es.foldl addEntry s = ⟨s.closed, s.cur ++ (es.filter fun e => !e.exist).map Entry.name,
      s.count + (es.filter fun e => !e.exist).length, s.listing ++ es.map Entry.name⟩ := by
  induction es generalizing s with
  | nil => simp
  | cons e es ih =>
    rw [List.foldl_cons, ih]
    unfold addEntry
    cases he : e.exist with
    | true => simp [List.filter_cons, he]
    | false =>
      simp only [Bool.false_eq_true, if_false, List.filter_cons, he, Bool.not_false, if_true, List.map_cons, List.append_assoc,
        List.singleton_append, List.length_cons, St.mk.injEq, true_and, and_true]
      omega

/-- A job is acceptable: the requested number is not reached before its last file. -/
def Fair (ntasks : ℕ) (files : List (Bool × List Entry)) (job : List PyStr) : Prop :=
  job = [] ∨ ∃ a, ∃ f ∈ files, job = a ++ pendingOf f ∧ a.length < ntasks

theorem loop (ntasks : ℕ) (hn : 0 < ntasks) (files : List (Bool × List Entry)) :
    let s := files.foldl (addFile ntasks) ⟨[], [], 0, []⟩
    s.closed.flatten ++ s.cur = files.flatMap pendingOf ∧ s.count = s.cur.length ∧
    s.listing = (files.filter fun f => !f.1).flatMap (fun f => f.2.map Entry.name) ∧
    (∀ j ∈ s.closed, ntasks ≤ j.length ∧ Fair ntasks files j) ∧ Fair ntasks files s.cur := by
  induction files using List.reverseRecOn with
  | nil => simp [Fair]
  | append_singleton files f ih =>
    simp only [List.foldl_append, List.foldl_cons, List.foldl_nil] at ih ⊢
    set s := files.foldl (addFile ntasks) ⟨[], [], 0, []⟩ with hs
    obtain ⟨i1, i2, i3, i4, i5⟩ := ih
    have mono : ∀ j, Fair ntasks files j → Fair ntasks (files ++ [f]) j := by
      rintro j (h | ⟨a, g, hg, h⟩)
      · exact Or.inl h
      · exact Or.inr ⟨a, g, by simp [hg], h⟩
    obtain ⟨prim, es⟩ := f
    unfold addFile
    cases prim with
    | true =>
      rw [if_pos rfl]
      refine ⟨?_, i2, ?_, fun j hj => ⟨(i4 j hj).1, mono j (i4 j hj).2⟩, mono _ i5⟩
      · rw [i1]; simp [pendingOf]
      · rw [i3]; simp [List.filter_append]
    | false =>
      rw [if_neg (by simp)]
      dsimp only
      rw [addEntries]
      have hp : pendingOf (false, es) = (es.filter fun e => !e.exist).map Entry.name := by simp [pendingOf]
      by_cases hc : s.count ≥ ntasks
      · simp only [hc, if_true, List.nil_append]
        refine ⟨?_, by simp, ?_, ?_, ?_⟩
        · rw [List.flatMap_append, ← i1]
          simp [hp]
        · rw [i3]; simp [List.filter_append]
        · intro j hj
          rcases List.mem_append.1 hj with hj | hj
          · exact ⟨(i4 j hj).1, mono j (i4 j hj).2⟩
          · have : j = s.cur := by simpa using hj
            subst this
            exact ⟨by omega, mono _ i5⟩
        · exact Or.inr ⟨[], (false, es), by simp, by simp [hp], hn⟩
      · simp only [hc, if_false]
        refine ⟨?_, by simp [i2], ?_, fun j hj => ⟨(i4 j hj).1, mono j (i4 j hj).2⟩, ?_⟩
        · rw [List.flatMap_append, ← i1]
          simp [hp]
        · rw [i3]; simp [List.filter_append]
        · exact Or.inr ⟨s.cur, (false, es), by simp, by rw [hp], by omega⟩

end Fvj
open Fvj

/-- C51: the job scripts together contain every pending image exactly once, in the order of the
list; every job but the last has at least the requested number of tasks and no job reaches that
number before its last file; the listing has all images, pending or not. -/
theorem C51_jobs (ntasks : ℕ) (hn : 0 < ntasks) (files : List (Bool × List Entry)) :
    (jobs ntasks files).1.flatten = files.flatMap pendingOf ∧
    (∀ j ∈ (jobs ntasks files).1.dropLast, ntasks ≤ j.length) ∧
    (∀ j ∈ (jobs ntasks files).1, j = [] ∨ ∃ a, ∃ f ∈ files, j = a ++ pendingOf f ∧ a.length < ntasks) ∧
    (jobs ntasks files).2 = (files.filter fun f => !f.1).flatMap (fun f => f.2.map Entry.name) := by
  obtain ⟨h1, -, h3, h4, h5⟩ := loop ntasks hn files
  unfold jobs
  dsimp only
  refine ⟨by simpa using h1, ?_, ?_, h3⟩
  · intro j hj
    rw [List.dropLast_concat] at hj
    exact (h4 j hj).1
  · intro j hj
    rcases List.mem_append.1 hj with hj | hj
    · exact (h4 j hj).2
    · have := List.mem_singleton.1 hj
      subst this
      exact h5

/-- A task name as the program makes it: "{outdir}/{base}.csv", no slash or dot in the base. -/
def TaskName (outdir t : PyStr) : Prop := ∃ base, t = outdir ++ '/' :: base ++ ".csv".toList ∧ '/' ∉ base ∧ '.' ∉ base

namespace Fvj

theorem infix_of_pyIn {sub s : PyStr} : pyIn sub s = true ↔ sub <:+: s := by
  induction s with
  | nil => simp [pyIn]
  | cons c t ih =>
    rw [pyIn, List.infix_cons_iff, Bool.or_eq_true, ih, List.isPrefixOf_iff_prefix]

theorem taskName_infix {outdir t u : PyStr} (ht : TaskName outdir t) (hu : TaskName outdir u) : t <:+: u ↔ t = u := by
  constructor
  · rintro ⟨a, b, h⟩
    obtain ⟨p, rfl, hp1, hp2⟩ := ht
    obtain ⟨q, rfl, hq1, hq2⟩ := hu
    -- the slash after the directory cannot move
    have ha : a = [] := by
      by_contra hne
      have hl : 0 < a.length := List.length_pos_iff.2 hne
      have h1 : (a ++ (outdir ++ '/' :: p ++ ".csv".toList) ++ b)[a.length + outdir.length]? = some '/' := by
        simp [List.append_assoc]
      rw [h] at h1
      have h2 : (outdir ++ '/' :: q ++ ".csv".toList)[a.length + outdir.length]? = (q ++ ".csv".toList)[a.length - 1]? := by
        obtain ⟨n, hn⟩ : ∃ n, a.length = n + 1 := ⟨a.length - 1, by omega⟩
        rw [hn, List.append_assoc, List.getElem?_append_right (by omega)]
        rw [show n + 1 + outdir.length - outdir.length = n + 1 by omega]
        simp
      rw [h2] at h1
      have := List.mem_of_getElem? h1
      rw [List.mem_append] at this
      rcases this with h3 | h3
      · exact hq1 h3
      · revert h3; decide
    subst ha
    simp only [List.nil_append, List.append_assoc, List.append_cancel_left_eq, List.cons_append, List.cons.injEq, true_and] at h
    -- compare the bases up to the dot
    have key : ∀ (p q : PyStr) (b : PyStr), '.' ∉ p → '.' ∉ q → p ++ (".csv".toList ++ b) = q ++ ".csv".toList → p = q := by
      intro p
      induction p with
      | nil =>
        intro q b _ hq h
        cases q with
        | nil => rfl
        | cons c q =>
          exfalso
          have : c = '.' := by
            have h' : ('.' :: 'c' :: 's' :: 'v' :: b) = c :: (q ++ ".csv".toList) := h
            injection h' with h1 _
            exact h1.symm
          exact hq (by simp [this])
      | cons c p ih =>
        intro q b hp hq h
        cases q with
        | nil =>
          exfalso
          have : c = '.' := by
            have h' : c :: (p ++ (".csv".toList ++ b)) = ['.', 'c', 's', 'v'] := h
            injection h' with h1 _
          exact hp (by simp [this])
        | cons d q =>
          have h' : c :: (p ++ (".csv".toList ++ b)) = d :: (q ++ ".csv".toList) := h
          injection h' with h1 h2
          rw [h1, ih q b (fun hx => hp (by simp [hx])) (fun hx => hq (by simp [hx])) h2]
    rw [key p q b hp2 hq2 h]
  · rintro rfl; exact List.infix_refl _

end Fvj

/-- The names made by the program are task names. -/
theorem C51_names (outdir image ext date : PyStr) (h : ∀ p ∈ [image, ext, date], '/' ∉ p ∧ '.' ∉ p) :
    TaskName outdir (outName outdir image ext date) := by
  refine ⟨image ++ '-' :: (ext ++ '-' :: date), rfl, ?_, ?_⟩
  · simp only [List.mem_append, List.mem_cons, not_or]
    exact ⟨(h _ (by simp)).1, by decide, (h _ (by simp)).1, by decide, (h _ (by simp)).1⟩
  · simp only [List.mem_append, List.mem_cons, not_or]
    exact ⟨(h _ (by simp)).2, by decide, (h _ (by simp)).2, by decide, (h _ (by simp)).2⟩

/-- C51: whatever was run and killed before, in any order: an image counts as done iff it was
done at the start or one of its runs got to the end, and the program is called for an image not
yet done exactly once more after its killed runs. -/
theorem C51_history (outdir : PyStr) (d : Disk) (hd : ∀ l ∈ d.done, TaskName outdir l) (es : List Event)
    (hes : ∀ e ∈ es, TaskName outdir e.task) (t : PyStr) (ht : TaskName outdir t) :
    (isDone (es.foldl exec d) t = true ↔ t ∈ d.done ∨ ∃ e ∈ es, e.task = t ∧ e.kill = false) ∧
    (t ∈ d.done → (es.foldl exec d).calls.count t = d.calls.count t) ∧
    (t ∉ d.done → (es.foldl exec d).calls.count t = d.calls.count t +
      ((es.filter fun e => decide (e.task = t)).takeWhile fun e => e.kill).length +
      (if ∃ e ∈ es, e.task = t ∧ e.kill = false then 1 else 0)) := by
  have isDone_iff : ∀ (d : Disk), (∀ l ∈ d.done, TaskName outdir l) → ∀ u, TaskName outdir u → (isDone d u = true ↔ u ∈ d.done) := by
    intro d hd u hu
    unfold isDone
    rw [List.any_eq_true]
    constructor
    · rintro ⟨l, hl, h⟩
      rw [infix_of_pyIn, taskName_infix hu (hd l hl)] at h
      rw [h]; exact hl
    · intro h
      exact ⟨u, h, infix_of_pyIn.2 (List.infix_refl _)⟩
  induction es generalizing d with
  | nil =>
    refine ⟨by simpa using isDone_iff d hd t ht, fun _ => rfl, fun _ => by simp⟩
  | cons e es ih =>
    have he := hes e (by simp)
    have hes' : ∀ e ∈ es, TaskName outdir e.task := fun x hx => hes x (by simp [hx])
    rw [List.foldl_cons]
    have hex := isDone_iff d hd e.task he
    by_cases hdone : e.task ∈ d.done
    · -- nothing happens
      have hno : exec d e = d := by
        unfold exec killed step
        rw [hex.2 hdone]; simp
      rw [hno]
      obtain ⟨j1, j2, j3⟩ := ih d hd hes'
      refine ⟨?_, j2, ?_⟩
      · rw [j1]
        constructor
        · rintro (h | ⟨x, hx, h⟩)
          · exact Or.inl h
          · exact Or.inr ⟨x, by simp [hx], h⟩
        · rintro (h | ⟨x, hx, h1, h2⟩)
          · exact Or.inl h
          · rcases List.mem_cons.1 hx with rfl | hx
            · exact Or.inl (h1 ▸ hdone)
            · exact Or.inr ⟨x, hx, h1, h2⟩
      · intro hnt
        have hne : e.task ≠ t := by rintro rfl; exact hnt hdone
        have hf : (e :: es).filter (fun e => decide (e.task = t)) = es.filter (fun e => decide (e.task = t)) := by
          rw [List.filter_cons, if_neg (by simpa using hne)]
        rw [j3 hnt, hf]
        refine congrArg₂ _ rfl (if_congr ?_ rfl rfl)
        constructor
        · rintro ⟨x, hx, h⟩; exact ⟨x, by simp [hx], h⟩
        · rintro ⟨x, hx, h1, h2⟩
          rcases List.mem_cons.1 hx with rfl | hx
          · exact absurd h1 hne
          · exact ⟨x, hx, h1, h2⟩
    · have hnd : isDone d e.task = false := by
        rw [Bool.eq_false_iff]; exact fun h => hdone (hex.1 h)
      cases hk : e.kill with
      | true =>
        have hx : (exec d e).done = d.done ∧ (exec d e).calls = d.calls ++ [e.task] := by
          unfold exec killed; rw [hk, hnd]; simp
        obtain ⟨j1, j2, j3⟩ := ih (exec d e) (by rw [hx.1]; exact hd) hes'
        rw [hx.1] at j1 j2 j3
        rw [hx.2] at j2 j3
        have hor : (∃ x ∈ e :: es, x.task = t ∧ x.kill = false) ↔ ∃ x ∈ es, x.task = t ∧ x.kill = false := by
          constructor
          · rintro ⟨x, hx', h1, h2⟩
            rcases List.mem_cons.1 hx' with rfl | hx'
            · rw [hk] at h2; cases h2
            · exact ⟨x, hx', h1, h2⟩
          · rintro ⟨x, hx', h⟩; exact ⟨x, by simp [hx'], h⟩
        refine ⟨by rw [j1, hor], ?_, ?_⟩
        · intro h
          have hne : e.task ≠ t := by rintro rfl; exact hdone h
          rw [j2 h, List.count_append, List.count_singleton, if_neg (by simpa using hne), Nat.add_zero]
        · intro h
          rw [j3 h, List.count_append, List.count_singleton]
          simp only [hor]
          by_cases hne : e.task = t
          · have hf : (e :: es).filter (fun e => decide (e.task = t)) = e :: es.filter (fun e => decide (e.task = t)) := by
              rw [List.filter_cons, if_pos (by simpa using hne)]
            have h1 : (if (e.task == t) = true then 1 else 0) = 1 := if_pos (by simpa using hne)
            rw [hf, h1, List.takeWhile_cons, hk]
            simp only [if_true, List.length_cons]
            omega
          · have hf : (e :: es).filter (fun e => decide (e.task = t)) = es.filter (fun e => decide (e.task = t)) := by
              rw [List.filter_cons, if_neg (by simpa using hne)]
            have h1 : (if (e.task == t) = true then 1 else 0) = 0 := if_neg (by simpa using hne)
            rw [hf, h1]
            omega
      | false =>
        have hx : (exec d e).done = d.done ++ [e.task] ∧ (exec d e).calls = d.calls ++ [e.task] := by
          unfold exec step; rw [hk, hnd]; simp
        obtain ⟨j1, j2, j3⟩ := ih (exec d e) (by
          rw [hx.1]
          intro l hl
          rcases List.mem_append.1 hl with hl | hl
          · exact hd l hl
          · rw [List.mem_singleton.1 hl]; exact he) hes'
        rw [hx.1] at j1 j2 j3
        rw [hx.2] at j2 j3
        by_cases hne : e.task = t
        · subst hne
          refine ⟨?_, fun h => absurd h hdone, ?_⟩
          · rw [j1]
            constructor
            · intro _; exact Or.inr ⟨e, by simp, rfl, hk⟩
            · intro _; exact Or.inl (by simp)
          · intro _
            rw [j2 (by simp), List.count_append, List.count_singleton, if_pos (by simp), List.filter_cons, if_pos (by simp),
              List.takeWhile_cons, if_neg (by simp [hk]), if_pos ⟨e, by simp, rfl, hk⟩]
            rfl
        · have hor : (∃ x ∈ e :: es, x.task = t ∧ x.kill = false) ↔ ∃ x ∈ es, x.task = t ∧ x.kill = false := by
            constructor
            · rintro ⟨x, hx', h1, h2⟩
              rcases List.mem_cons.1 hx' with rfl | hx'
              · exact absurd h1 hne
              · exact ⟨x, hx', h1, h2⟩
            · rintro ⟨x, hx', h⟩; exact ⟨x, by simp [hx'], h⟩
          have hmem : t ∈ d.done ++ [e.task] ↔ t ∈ d.done := by
            simp [Ne.symm hne]
          refine ⟨by rw [j1, hor, hmem], ?_, ?_⟩
          · intro h
            rw [j2 (hmem.2 h), List.count_append, List.count_singleton, if_neg (by simpa using hne), Nat.add_zero]
          · intro h
            have hf : (e :: es).filter (fun e => decide (e.task = t)) = es.filter (fun e => decide (e.task = t)) := by
              rw [List.filter_cons, if_neg (by simpa using hne)]
            have h1 : (if (e.task == t) = true then 1 else 0) = 0 := if_neg (by simpa using hne)
            rw [j3 (fun h' => h (hmem.1 h')), List.count_append, List.count_singleton, hf, h1]
            simp only [hor]
            omega

/-- C51 (finding): a failing run is recorded as done, so running the jobs again never retries it. -/
theorem C51_failure_not_retried (outdir : PyStr) (t : PyStr) (d : Disk)
    (hnd : isDone d t = false) (hnt : t ∉ d.tables) (es : List Event) (hes : ∀ e ∈ es, e.task = t) :
    t ∉ (es.foldl exec (step d t false)).tables ∧
    (es.foldl exec (step d t false)).calls = d.calls ++ [t] := by
  have h1 : step d t false = ⟨d.done ++ [t], d.calls ++ [t], d.tables⟩ := by unfold step; rw [hnd]; simp
  have hdone : isDone (step d t false) t = true := by
    rw [h1]
    unfold isDone
    rw [List.any_eq_true]
    exact ⟨t, by simp, infix_of_pyIn.2 (List.infix_refl _)⟩
  have key : ∀ es : List Event, (∀ e ∈ es, e.task = t) → es.foldl exec (step d t false) = step d t false := by
    intro es
    induction es with
    | nil => intro _; rfl
    | cons e es ih =>
      intro h
      rw [List.foldl_cons]
      have : exec (step d t false) e = step d t false := by
        generalize step d t false = s at hdone
        unfold exec killed step
        rw [h e (by simp), hdone]; simp
      rw [this]
      exact ih (fun x hx => h x (by simp [hx]))
  rw [key es hes, h1]
  exact ⟨hnt, rfl⟩

/-- Three files, jobs of two: the second file has three extensions, one already processed. -/
example : (jobs 2 [(false, [⟨"a".toList, false⟩]), (false, [⟨"b".toList, false⟩, ⟨"c".toList, true⟩, ⟨"d".toList, false⟩]),
    (true, []), (false, [⟨"e".toList, false⟩])]).1 = [["a".toList, "b".toList, "d".toList], ["e".toList]] := by decide

example : TaskName "/out".toList "/out/fvc-F0000-2020.csv".toList :=
  ⟨"fvc-F0000-2020".toList, by decide, by decide, by decide⟩

end Verif.Props
