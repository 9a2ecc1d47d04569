import Verif.Model.PosparamsJobs
import Verif.Lemmas.Str
import Verif.Props.RayRun

/-!
# C108: which files are fitted, and the latest calibrations
-/

namespace Verif.Props.PosparamsJobs
open Verif.Py Verif.Model.PosparamsJobs Verif.Model.ProcessFvc

/-- `p` is a letter and five numeric characters. -/
def IsPosid (isAlpha isNum : Char → Bool) (p : PyStr) : Prop :=
  ∃ c t, p = c :: t ∧ t.length = 5 ∧ isAlpha c = true ∧ ∀ d ∈ t, isNum d = true

/-- The name of the file is a positioner identifier, anything, and `.csv`. -/
def Recognised (isAlpha isNum : Char → Bool) (path p : PyStr) : Prop :=
  IsPosid isAlpha isNum p ∧ ∃ rest, basename path = p ++ rest ++ ".csv".toList

theorem splitext_csv (b stem : PyStr) : splitext b = (stem, ".csv".toList) ↔ b = stem ++ ".csv".toList ∧ ∃ c ∈ stem, c ≠ '.' := by
  have hcsv : (".csv".toList : PyStr) = ['.', 'c', 's', 'v'] := rfl
  rw [hcsv]
  unfold splitext
  have htd := List.takeWhile_append_dropWhile (p := fun c => decide (c ≠ '.')) (l := b.reverse)
  constructor
  · intro h
    rcases hd : b.reverse.dropWhile (fun c => decide (c ≠ '.')) with _ | ⟨d, s⟩
    · rw [hd] at h
      exact absurd (Prod.mk.inj h).2 (by simp)
    · rw [hd] at h
      dsimp only at h
      split_ifs at h with ha
      · exact absurd (Prod.mk.inj h).2 (by simp)
      · obtain ⟨h1, h2⟩ := Prod.mk.inj h
        have h2' : (b.reverse.takeWhile (fun c => decide (c ≠ '.'))).reverse = ['c', 's', 'v'] := (List.cons.inj h2).2
        have hdd : d = '.' := by
          have := List.head_dropWhile_not (l := b.reverse) (fun c => decide (c ≠ '.')) (by rw [hd]; simp)
          simp only [hd, List.head_cons] at this
          simpa using this
        refine ⟨?_, ?_⟩
        · rw [hd, hdd] at htd
          have := congrArg List.reverse htd
          rw [List.reverse_append, List.reverse_cons, List.reverse_reverse, h1, h2'] at this
          rw [← this]
          simp
        · simp only [List.all_eq_true, decide_eq_true_eq, not_forall] at ha
          obtain ⟨c, hc, hne⟩ := ha
          exact ⟨c, by rw [← h1]; exact List.mem_reverse.2 hc, hne⟩
  · rintro ⟨rfl, c, hc, hne⟩
    have hd : (stem ++ ['.', 'c', 's', 'v']).reverse.dropWhile (fun c => decide (c ≠ '.')) = '.' :: stem.reverse := by
      rw [List.reverse_append]
      rfl
    have ht : (stem ++ ['.', 'c', 's', 'v']).reverse.takeWhile (fun c => decide (c ≠ '.')) = ['v', 's', 'c'] := by
      rw [List.reverse_append]
      rfl
    rw [hd]
    dsimp only
    rw [if_neg, ht]
    · simp
    · simp only [List.all_eq_true, decide_eq_true_eq, not_forall]
      exact ⟨c, List.mem_reverse.2 hc, hne⟩

/-- **C108** A file belongs to positioner `p` exactly if its name (without directory) is `p`, a letter and five numeric characters, followed by
anything and `.csv`. -/
theorem C108_recognised (isAlpha isNum : Char → Bool) (hdot : isAlpha '.' = false) (path p : PyStr) :
    posidOf isAlpha isNum path = some p ↔ Recognised isAlpha isNum path p := by
  unfold posidOf Recognised
  dsimp only
  obtain ⟨se, hse⟩ : ∃ se, splitext (basename path) = se := ⟨_, rfl⟩
  rw [hse]
  obtain ⟨stem, ext⟩ := se
  dsimp only
  constructor
  · intro h
    split_ifs at h with hc
    obtain ⟨h1, h2, h3⟩ := hc
    rw [h1] at hse
    obtain ⟨h4, -⟩ := (splitext_csv _ _).1 hse
    obtain rfl := Option.some.inj h
    refine ⟨?_, stem.drop 6, by rw [List.take_append_drop]; exact h4⟩
    rcases ht : stem.take 6 with _ | ⟨c, t⟩
    · rw [ht] at h2; cases h2
    · rw [ht] at h2 h3
      dsimp only at h3
      rw [Bool.and_eq_true] at h3
      exact ⟨c, t, rfl, by simpa using h2, h3.1, by simpa using h3.2⟩
  · rintro ⟨⟨c, t, rfl, h1, h2, h3⟩, rest, h4⟩
    have hne : c ≠ '.' := by
      rintro rfl
      rw [hdot] at h2
      cases h2
    have : splitext (basename path) = (c :: t ++ rest, ".csv".toList) := (splitext_csv _ _).2 ⟨h4, c, by simp, hne⟩
    rw [hse] at this
    obtain ⟨rfl, rfl⟩ := Prod.mk.inj this
    have htk : (c :: t ++ rest).take 6 = c :: t := by
      rw [List.take_append_of_le_length (by simp [h1]), List.take_of_length_le (by simp [h1])]
    rw [htk, if_pos]
    refine ⟨rfl, by simp [h1], ?_⟩
    dsimp only
    rw [Bool.and_eq_true]
    exact ⟨h2, by simpa using h3⟩

/-- **C108** (finding) Of several files with the same first six characters only the last one is fitted, without a message: the file used for
`p` is the last one that belongs to it. -/
theorem C108_last_file (isAlpha isNum : Char → Bool) (hdot : isAlpha '.' = false) (files : List PyStr) (p path : PyStr) :
    (csvFiles isAlpha isNum files).get? p = some path ↔
      ∃ a b, files = a ++ path :: b ∧ Recognised isAlpha isNum path p ∧ ∀ f ∈ b, ¬ Recognised isAlpha isNum f p := by
  have key : ∀ d : Dict PyStr PyStr, (files.foldl (addFile isAlpha isNum) d).get? p = some path ↔
        (∃ a b, files = a ++ path :: b ∧ Recognised isAlpha isNum path p ∧ ∀ f ∈ b, ¬ Recognised isAlpha isNum f p) ∨
        ((∀ f ∈ files, ¬ Recognised isAlpha isNum f p) ∧ d.get? p = some path) := by
    induction files with
    | nil =>
      intro d
      constructor
      · intro h; exact Or.inr ⟨by simp, h⟩
      · rintro (⟨a, b, e, -⟩ | ⟨-, h⟩)
        · exact absurd e (by simp)
        · exact h
    | cons f t ih =>
      intro d
      rw [List.foldl_cons, ih]
      have hrec := C108_recognised isAlpha isNum hdot f
      constructor
      · rintro (⟨a, b, e, h⟩ | ⟨h1, h2⟩)
        · exact Or.inl ⟨f :: a, b, by rw [e]; rfl, h⟩
        · by_cases hf : Recognised isAlpha isNum f p
          · unfold addFile at h2
            rw [(hrec p).2 hf] at h2
            dsimp only at h2
            rw [Dict.get?_set_self] at h2
            obtain rfl := Option.some.inj h2
            exact Or.inl ⟨[], t, rfl, hf, h1⟩
          · refine Or.inr ⟨?_, ?_⟩
            · intro g hg
              rcases List.mem_cons.1 hg with rfl | hg
              · exact hf
              · exact h1 g hg
            · unfold addFile at h2
              rcases hq : posidOf isAlpha isNum f with _ | q
              · rw [hq] at h2; exact h2
              · rw [hq] at h2
                dsimp only at h2
                rwa [Dict.get?_set_ne] at h2
                rintro rfl
                exact hf ((hrec q).1 hq)
      · rintro (⟨a, b, e, h, h'⟩ | ⟨h1, h2⟩)
        · rcases a with _ | ⟨g, a⟩
          · obtain ⟨rfl, rfl⟩ := List.cons.inj e
            refine Or.inr ⟨h', ?_⟩
            unfold addFile
            rw [(hrec p).2 h]
            exact Dict.get?_set_self _ _ _
          · obtain ⟨rfl, rfl⟩ := List.cons.inj e
            exact Or.inl ⟨a, b, rfl, h, h'⟩
        · refine Or.inr ⟨fun g hg => h1 g (List.mem_cons_of_mem _ hg), ?_⟩
          unfold addFile
          rcases hq : posidOf isAlpha isNum f with _ | q
          · exact h2
          · dsimp only
            rw [Dict.get?_set_ne]
            · exact h2
            · rintro rfl
              exact h1 f List.mem_cons_self ((hrec q).1 hq)
  unfold csvFiles
  rw [key]
  constructor
  · rintro (h | ⟨-, h⟩)
    · exact h
    · cases h
  · exact Or.inl

/-- The jobs are the positioners with their files. -/
theorem jobs_nodup (isAlpha isNum : Char → Bool) (files : List PyStr) : (Dict.keys (csvFiles isAlpha isNum files)).Nodup := by
  unfold csvFiles
  have : ∀ d : Dict PyStr PyStr, (Dict.keys d).Nodup → (Dict.keys (files.foldl (addFile isAlpha isNum) d)).Nodup := by
    induction files with
    | nil => intro d h; exact h
    | cons f t ih =>
      intro d h
      refine ih _ ?_
      unfold addFile
      split
      · exact Dict.nodup_keys_set _ _ _ h
      · exact h
  exact this [] List.nodup_nil

theorem csvFiles_nil (isAlpha isNum : Char → Bool) (hdot : isAlpha '.' = false) (files : List PyStr) :
    csvFiles isAlpha isNum files = [] ↔ ∀ f ∈ files, ∀ p, ¬ Recognised isAlpha isNum f p := by
  constructor
  · intro h f hf p hp
    have key : ∀ (l : List PyStr), f ∈ l → ∃ path a b, l = a ++ path :: b ∧ Recognised isAlpha isNum path p ∧
        ∀ f ∈ b, ¬ Recognised isAlpha isNum f p := by
      intro l
      induction l with
      | nil => intro h; cases h
      | cons g t ih =>
        intro hm
        by_cases ht : ∃ f' ∈ t, Recognised isAlpha isNum f' p
        · obtain ⟨f', h1, h2⟩ := ht
          have : ∀ (l : List PyStr), f' ∈ l → ∃ path a b, l = a ++ path :: b ∧ Recognised isAlpha isNum path p ∧
              ∀ f ∈ b, ¬ Recognised isAlpha isNum f p := by
            intro l
            induction l using List.reverseRecOn with
            | nil => intro h; cases h
            | append_singleton l x ihx =>
              intro hx
              by_cases hr : Recognised isAlpha isNum x p
              · exact ⟨x, l, [], rfl, hr, by simp⟩
              · rcases List.mem_append.1 hx with hx | hx
                · obtain ⟨path, a, b, e, h3, h4⟩ := ihx hx
                  refine ⟨path, a, b ++ [x], by rw [e]; simp, h3, ?_⟩
                  intro f hf
                  rcases List.mem_append.1 hf with hf | hf
                  · exact h4 f hf
                  · rw [List.mem_singleton.1 hf]; exact hr
                · rw [List.mem_singleton.1 hx] at h2
                  exact absurd h2 hr
          obtain ⟨path, a, b, e, h3, h4⟩ := this t h1
          exact ⟨path, g :: a, b, by rw [e]; rfl, h3, h4⟩
        · push Not at ht
          rcases List.mem_cons.1 hm with rfl | hm
          · exact ⟨f, [], t, rfl, hp, ht⟩
          · exact absurd hp (ht f hm)
    obtain ⟨path, a, b, e, h1, h2⟩ := key files hf
    have := (C108_last_file isAlpha isNum hdot files p path).2 ⟨a, b, e, h1, h2⟩
    rw [h] at this
    cases this
  · intro h
    unfold csvFiles
    have : ∀ d : Dict PyStr PyStr, files.foldl (addFile isAlpha isNum) d = d := by
      induction files with
      | nil => intro d; rfl
      | cons f t ih =>
        intro d
        rw [List.foldl_cons, ih (fun g hg => h g (List.mem_cons_of_mem _ hg))]
        unfold addFile
        rcases hq : posidOf isAlpha isNum f with _ | q
        · rfl
        · exact absurd ((C108_recognised isAlpha isNum hdot f q).1 hq) (h f List.mem_cons_self q)
    exact this []

/-- **C108** With one process the positioners are fitted in turn: the lines printed are the results up to the first exception, which ends the run;
"Complete." is printed exactly if there was none. With no file recognised there is a message and the script ends with code 0. -/
theorem C108_one_process (isAlpha isNum : Char → Bool) (hdot : isAlpha '.' = false) (fit : PyStr → PyStr → Except PyErr PyStr)
    (files : List PyStr) :
    ((∀ f ∈ files, ∀ p, ¬ Recognised isAlpha isNum f p) → (fitPosparams isAlpha isNum fit (some 1) files).2 = some (.sysExit 0)) ∧
    ((∃ f ∈ files, ∃ p, Recognised isAlpha isNum f p) →
      (∀ e, (fitPosparams isAlpha isNum fit (some 1) files).2 = some e ↔
        ∃ a p path b, csvFiles isAlpha isNum files = a ++ (p, path) :: b ∧ (∀ j ∈ a, ∃ s, fit j.1 j.2 = .ok s) ∧ fit p path = .error e) ∧
      (∀ out, fitPosparams isAlpha isNum fit (some 1) files = (out, none) ↔
        ∃ l, List.Forall₂ (fun j s => fit j.1 j.2 = .ok s) (csvFiles isAlpha isNum files) l ∧ out = l ++ ["Complete.".toList])) := by
  have hturn : ∀ jobs : List (PyStr × PyStr), (∀ e, (inTurn fit jobs).2 = some e ↔
      ∃ a p path b, jobs = a ++ (p, path) :: b ∧ (∀ j ∈ a, ∃ s, fit j.1 j.2 = .ok s) ∧ fit p path = .error e) ∧
      ∀ l, inTurn fit jobs = (l, none) ↔ List.Forall₂ (fun j s => fit j.1 j.2 = .ok s) jobs l := by
    intro jobs
    induction jobs with
    | nil =>
      constructor
      · intro e
        constructor
        · intro h; cases h
        · rintro ⟨a, p, path, b, h, -⟩; exact absurd h (by simp)
      · intro l
        constructor
        · intro h; rw [← (Prod.mk.inj h).1]; exact List.Forall₂.nil
        · intro h; cases h; rfl
    | cons j t ih =>
      obtain ⟨p, path⟩ := j
      unfold inTurn
      rcases hf : fit p path with e0 | s
      · dsimp only
        constructor
        · intro e
          constructor
          · intro h
            exact ⟨[], p, path, t, rfl, by simp, by rw [hf, Option.some.inj h]⟩
          · rintro ⟨a, p', path', b, h, h1, h2⟩
            rcases a with _ | ⟨x, a⟩
            · obtain ⟨h3, -⟩ := List.cons.inj h
              obtain ⟨rfl, rfl⟩ := Prod.mk.inj h3
              rw [hf] at h2
              rw [Except.error.inj h2]
            · obtain ⟨rfl, -⟩ := List.cons.inj h
              obtain ⟨s, hs⟩ := h1 _ List.mem_cons_self
              rw [hf] at hs; cases hs
        · intro l
          constructor
          · intro h; exact absurd (Prod.mk.inj h).2 (by simp)
          · intro h
            cases h with
            | cons h1 h2 => rw [hf] at h1; cases h1
      · dsimp only
        constructor
        · intro e
          rw [ih.1 e]
          constructor
          · rintro ⟨a, p', path', b, h, h1, h2⟩
            refine ⟨(p, path) :: a, p', path', b, by rw [h]; rfl, ?_, h2⟩
            intro x hx
            rcases List.mem_cons.1 hx with rfl | hx
            · exact ⟨s, hf⟩
            · exact h1 x hx
          · rintro ⟨a, p', path', b, h, h1, h2⟩
            rcases a with _ | ⟨x, a⟩
            · obtain ⟨h3, -⟩ := List.cons.inj h
              obtain ⟨rfl, rfl⟩ := Prod.mk.inj h3
              rw [hf] at h2; cases h2
            · obtain ⟨-, h4⟩ := List.cons.inj h
              exact ⟨a, p', path', b, h4, fun x hx => h1 x (List.mem_cons_of_mem _ hx), h2⟩
        · intro l
          constructor
          · intro h
            obtain ⟨h1, h2⟩ := Prod.mk.inj h
            rw [← h1]
            exact List.Forall₂.cons hf ((ih.2 _).1 (Prod.ext rfl h2))
          · intro h
            cases h with
            | cons h1 h2 =>
              rw [(ih.2 _).2 h2]
              rw [hf] at h1
              rw [Except.ok.inj h1]
  have hnil := csvFiles_nil isAlpha isNum hdot files
  constructor
  · intro h
    unfold fitPosparams
    dsimp only
    rw [if_pos (hnil.2 h)]
  · rintro ⟨f, hf, p, hp⟩
    have hne : csvFiles isAlpha isNum files ≠ [] := fun h => hnil.1 h f hf p hp
    have e : fitPosparams isAlpha isNum fit (some 1) files = if (inTurn fit (csvFiles isAlpha isNum files)).2 = none then
          ((inTurn fit (csvFiles isAlpha isNum files)).1 ++ ["Complete.".toList], none)
        else inTurn fit (csvFiles isAlpha isNum files) := by
      unfold fitPosparams
      dsimp only
      rw [if_neg hne, if_neg (by norm_num), if_pos rfl]
    rw [e]
    obtain ⟨h1, h2⟩ := hturn (csvFiles isAlpha isNum files)
    obtain ⟨R, hR⟩ : ∃ R, inTurn fit (csvFiles isAlpha isNum files) = R := ⟨_, rfl⟩
    rw [hR] at h1 h2 ⊢
    obtain ⟨out0, _ | e0⟩ := R
    · rw [if_pos rfl]
      refine ⟨fun e => ⟨fun h => (nomatch h), fun h => absurd ((h1 e).2 h) (by simp)⟩, ?_⟩
      intro out
      constructor
      · intro h
        exact ⟨out0, (h2 out0).1 rfl, (Prod.mk.inj h).1.symm⟩
      · rintro ⟨l, hl, rfl⟩
        have := (h2 l).2 hl
        rw [(Prod.mk.inj this).1]
    · rw [if_neg (by simp)]
      refine ⟨h1, ?_⟩
      intro out
      constructor
      · intro h; exact absurd (Prod.mk.inj h).2 (by simp)
      · rintro ⟨l, hl, -⟩
        exact absurd (Prod.mk.inj ((h2 l).2 hl)).2 (by simp)

/-- **C108** A number of processes below 1 is an error, before any fit, if there is something to fit. -/
theorem C108_processes (isAlpha isNum : Char → Bool) (hdot : isAlpha '.' = false) (fit : PyStr → PyStr → Except PyErr PyStr) (n : ℤ)
    (hn : n < 1) (files : List PyStr) (h : ∃ f ∈ files, ∃ p, Recognised isAlpha isNum f p) :
    fitPosparams isAlpha isNum fit (some n) files = ([], some .valueError) := by
  obtain ⟨f, hf, p, hp⟩ := h
  have hne : csvFiles isAlpha isNum files ≠ [] := fun h => (csvFiles_nil isAlpha isNum hdot files).1 h f hf p hp
  unfold fitPosparams
  dsimp only
  rw [if_neg hne, if_pos hn]

/-- **C108** (finding) With several processes (the default) a positioner whose fit raises an exception leaves no trace: the run always ends with
"Complete." and prints the results of the others. -/
theorem C108_pool (isAlpha isNum : Char → Bool) (hdot : isAlpha '.' = false) (fit : PyStr → PyStr → Except PyErr PyStr) (nproc : Option ℤ)
    (hn : ∀ n, nproc = some n → 1 < n) (files : List PyStr) (h : ∃ f ∈ files, ∃ p, Recognised isAlpha isNum f p) :
    ∃ l, fitPosparams isAlpha isNum fit nproc files = (l ++ ["Complete.".toList], none) ∧
      (∀ s, s ∈ l ↔ ∃ p path, (csvFiles isAlpha isNum files).get? p = some path ∧ fit p path = .ok s) := by
  obtain ⟨f, hf, p, hp⟩ := h
  have hne : csvFiles isAlpha isNum files ≠ [] := fun h => (csvFiles_nil isAlpha isNum hdot files).1 h f hf p hp
  refine ⟨inPool fit (csvFiles isAlpha isNum files), ?_, ?_⟩
  · unfold fitPosparams
    dsimp only
    rw [if_neg hne]
    rcases nproc with _ | n
    · rfl
    · have := hn n rfl
      dsimp only
      rw [if_neg (by omega), if_neg (by omega)]
  · intro s
    have hget : ∀ (d : Dict PyStr PyStr), (Dict.keys d).Nodup → ∀ p path, (p, path) ∈ d ↔ d.get? p = some path := by
      intro d
      induction d with
      | nil => intro _ p path; exact ⟨fun h => (nomatch h), fun h => (nomatch h)⟩
      | cons a t ih =>
        intro hk p path
        obtain ⟨k, v⟩ := a
        have hk' : k ∉ Dict.keys t ∧ (Dict.keys t).Nodup := List.nodup_cons.1 hk
        unfold Dict.get?
        split_ifs with h
        · subst h
          constructor
          · intro hm
            rcases List.mem_cons.1 hm with hm | hm
            · rw [(Prod.mk.inj hm).2]
            · exact absurd (List.mem_map_of_mem (f := Prod.fst) hm) hk'.1
          · intro hm; rw [Option.some.inj hm]; exact List.mem_cons_self
        · rw [← ih hk'.2, List.mem_cons]
          constructor
          · rintro (hm | hm)
            · exact absurd (Prod.mk.inj hm).1.symm h
            · exact hm
          · exact Or.inr
    unfold inPool
    rw [List.mem_filterMap]
    constructor
    · rintro ⟨⟨p, path⟩, hm, he⟩
      refine ⟨p, path, (hget _ (jobs_nodup _ _ _) p path).1 hm, ?_⟩
      rcases hfit : fit p path with e | s'
      · dsimp only at he; rw [hfit] at he; cases he
      · dsimp only at he; rw [hfit] at he; rw [Option.some.inj he]
    · rintro ⟨p, path, hm, he⟩
      exact ⟨(p, path), (hget _ (jobs_nodup _ _ _) p path).2 hm, by dsimp only; rw [he]⟩

/-! ## Petals and calibrations -/

theorem pyIn_prefix (p s : PyStr) : pyIn p (p ++ s) = true := by
  have := Verif.Lemmas.Str.pyIn_append [] p s
  simpa using this

/-- **C108** The petals found in the database are the numbers below 20 after the prefix in the names of the tables; other tables, and those with
something that is not a number after the prefix, give nothing. -/
theorem C108_petal_ids (parseInt : PyStr → Option ℤ) (c : Char) (pre : PyStr) (tables : List PyStr)
    (hform : ∀ t ∈ tables, pyIn (c :: pre) t = true → ∃ s, t = c :: pre ++ s ∧ c ∉ s) (i : ℤ) :
    i ∈ petalIds (c :: pre) parseInt tables ↔ i < 20 ∧ ∃ s, (c :: pre ++ s) ∈ tables ∧ parseInt s = some i := by
  have hr : ∀ s : PyStr, c ∉ s → replace (c :: pre) [] (c :: pre ++ s) = s := by
    intro s hs
    unfold replace
    have hds : ∀ d ∈ s, d ≠ c := by
      rintro d hd rfl
      exact hs hd
    have := Verif.Lemmas.Str.split_two (s0 := c) (s' := pre) (a := []) (b := s) (by simp) hds
    rw [List.nil_append] at this
    rw [this]
    simp [List.intercalate]
  unfold petalIds
  rw [List.mem_filterMap]
  constructor
  · rintro ⟨t, ht, h⟩
    split_ifs at h with h1
    obtain ⟨s, rfl, hs⟩ := hform t ht h1
    rw [hr s hs] at h
    rcases hq : parseInt s with _ | j
    · rw [hq] at h; cases h
    · rw [hq] at h
      dsimp only at h
      split_ifs at h with h2
      obtain rfl := Option.some.inj h
      exact ⟨h2, s, ht, hq⟩
  · rintro ⟨hlt, s, hm, hp⟩
    obtain ⟨s', e, hs⟩ := hform _ hm (pyIn_prefix _ _)
    obtain rfl := List.append_cancel_left e
    refine ⟨_, hm, ?_⟩
    rw [if_pos (pyIn_prefix _ _), hr s hs, hp]
    exact if_pos hlt

/-- What is asked of the database. -/
structure Honest {π : Type} (db : Db π) : Prop where
  nodup : ∀ l, (db.distinct l).Nodup
  mem : ∀ l p, p ∈ db.distinct l ↔ p ∈ l
  found : ∀ l, l ≠ [] → ∃ c, db.latest l = some c
  latest : ∀ l c, db.latest l = some c → c ∈ l ∧ ∀ c' ∈ l, c'.time ≤ c.time

theorem one_ok {π : Type} {db : Db π} (h : Honest db) (rows : List (Calib π)) (loc : ℤ) (p : PyStr × ℤ)
    (hp : p ∈ rows.map fun c => (c.posid, c.dev)) : ∃ c, one db rows loc p = .ok (c, loc) ∧ c.posid = p.1 ∧ c ∈ rows ∧
      ∀ c' ∈ rows, c'.posid = p.1 → c'.time ≤ c.time := by
  obtain ⟨c0, h0, e0⟩ := List.mem_map.1 hp
  have hm : c0 ∈ rows.filter fun c => decide (c.posid = p.1) := List.mem_filter.2 ⟨h0, by rw [← e0]; simp⟩
  obtain ⟨c, hc⟩ := h.found (rows.filter fun c => decide (c.posid = p.1)) (fun h => by rw [h] at hm; cases hm)
  obtain ⟨h1, h2⟩ := h.latest _ _ hc
  refine ⟨c, ?_, of_decide_eq_true (List.mem_filter.1 h1).2, (List.mem_filter.1 h1).1, ?_⟩
  · unfold one
    rw [hc]
  · intro c' hc' e
    exact h2 c' (List.mem_filter.2 ⟨hc', by simpa using e⟩)

theorem mapM_one {π : Type} {db : Db π} (h : Honest db) (rows : List (Calib π)) (loc : ℤ) (ps : List (PyStr × ℤ))
    (hp : ∀ p ∈ ps, p ∈ rows.map fun c => (c.posid, c.dev)) : ∃ out, ps.mapM (one db rows loc) = .ok out ∧
      List.Forall₂ (fun p (r : Calib π × ℤ) => r.2 = loc ∧ r.1.posid = p.1 ∧ r.1 ∈ rows ∧
        ∀ c' ∈ rows, c'.posid = p.1 → c'.time ≤ r.1.time) ps out := by
  induction ps with
  | nil => exact ⟨[], rfl, List.Forall₂.nil⟩
  | cons p t ih =>
    obtain ⟨c, h1, h2, h3, h4⟩ := one_ok h rows loc p (hp p List.mem_cons_self)
    obtain ⟨out, h5, h6⟩ := ih fun q hq => hp q (List.mem_cons_of_mem _ hq)
    refine ⟨(c, loc) :: out, ?_, List.Forall₂.cons ⟨rfl, h2, h3, h4⟩ h6⟩
    rw [List.mapM_cons, h1, h5]
    rfl

theorem petal_ok {π : Type} {db : Db π} (h : Honest db) (i loc : ℤ) (hl : petalId2loc.get? i = some loc) :
    ∃ out, petal db i = .ok out ∧ List.Forall₂ (fun p (r : Calib π × ℤ) => r.2 = loc ∧ r.1.posid = p.1 ∧ r.1 ∈ db.table i ∧
        ∀ c' ∈ db.table i, c'.posid = p.1 → c'.time ≤ r.1.time) (db.distinct ((db.table i).map fun c => (c.posid, c.dev))) out := by
  unfold petal
  rw [hl]
  exact mapM_one h _ _ _ fun p hp => (h.mem _ _).1 hp

theorem petalId_known (i : ℤ) : (∃ loc, petalId2loc.get? i = some loc) ↔ 1 ≤ i ∧ i ≤ 11 := by
  constructor
  · rintro ⟨loc, h⟩
    have := (Dict.mem_keys petalId2loc i).2 ⟨loc, h⟩
    simp [Dict.keys, petalId2loc] at this
    omega
  · rintro ⟨h1, h2⟩
    interval_cases i <;> exact ⟨_, rfl⟩

/-- **C108** The table has for every positioner of every petal its latest calibration in that petal with the location of the petal, and nothing
else; it is written exactly if all petals are among 1 to 11. The script always ends with an error code, also when the table was written. -/
theorem C108_latest {π : Type} (db : Db π) (h : Honest db) (petals : List ℤ) :
    ((getPosparams db petals).1 = none ↔ ∃ i ∈ petals, ¬ (1 ≤ i ∧ i ≤ 11)) ∧
    ((getPosparams db petals).1 = none → (getPosparams db petals).2 = .keyError) ∧
    ∀ out, (getPosparams db petals).1 = some out → (getPosparams db petals).2 = .sysExit 12 ∧
      (∀ r ∈ out, ∃ i ∈ petals, Model.Dbutil.getPetalLoc i = .ok r.2 ∧ r.1 ∈ db.table i ∧
        ∀ c ∈ db.table i, c.posid = r.1.posid → c.time ≤ r.1.time) ∧
      ∀ i ∈ petals, ∀ c ∈ db.table i, ∃ r ∈ out, r.1.posid = c.posid ∧ r.1 ∈ db.table i := by
  have key : ∀ petals : List ℤ, ((∀ i ∈ petals, 1 ≤ i ∧ i ≤ 11) → ∃ l, petals.mapM (petal db) = .ok l ∧
      List.Forall₂ (fun i out => petal db i = .ok out) petals l) ∧
      ((∃ i ∈ petals, ¬ (1 ≤ i ∧ i ≤ 11)) → petals.mapM (petal db) = .error .keyError) := by
    intro petals
    induction petals with
    | nil => exact ⟨fun _ => ⟨[], rfl, List.Forall₂.nil⟩, fun ⟨i, h, _⟩ => (nomatch h)⟩
    | cons i t ih =>
      rw [List.mapM_cons]
      by_cases hi : 1 ≤ i ∧ i ≤ 11
      · obtain ⟨loc, hl⟩ := (petalId_known i).2 hi
        obtain ⟨out, ho, -⟩ := petal_ok h i loc hl
        rw [ho]
        constructor
        · intro hh
          obtain ⟨l, h1, h2⟩ := ih.1 fun j hj => hh j (List.mem_cons_of_mem _ hj)
          exact ⟨out :: l, by rw [h1]; rfl, List.Forall₂.cons ho h2⟩
        · rintro ⟨j, hj, hn⟩
          rcases List.mem_cons.1 hj with rfl | hj
          · exact absurd hi hn
          · rw [ih.2 ⟨j, hj, hn⟩]; rfl
      · have hk : petalId2loc.get? i = none := by
          rcases hg : petalId2loc.get? i with _ | v
          · rfl
          · exact absurd ((petalId_known i).1 ⟨v, hg⟩) hi
        have hpe : petal db i = .error .keyError := by
          unfold petal; rw [hk]
        rw [hpe]
        exact ⟨fun hh => absurd (hh i List.mem_cons_self) hi, fun _ => rfl⟩
  obtain ⟨k1, k2⟩ := key petals
  have hagree : ∀ i loc, petalId2loc.get? i = some loc → Model.Dbutil.getPetalLoc i = .ok loc := by
    intro i loc hl
    have hb := (petalId_known i).1 ⟨loc, hl⟩
    obtain ⟨h1, h2⟩ := hb
    interval_cases i <;> (obtain rfl := Option.some.inj hl; rfl)
  by_cases hall : ∀ i ∈ petals, 1 ≤ i ∧ i ≤ 11
  · obtain ⟨l, h1, h2⟩ := k1 hall
    have e : getPosparams db petals = (some l.flatten, .sysExit 12) := by
      unfold getPosparams; rw [h1]
    rw [e]
    refine ⟨⟨fun h => (nomatch h), fun ⟨i, hi, hn⟩ => absurd (hall i hi) hn⟩, fun h => (nomatch h), ?_⟩
    intro out ho
    obtain rfl := Option.some.inj ho
    refine ⟨rfl, ?_, ?_⟩
    · intro r hr
      obtain ⟨o, ho, hro⟩ := List.mem_flatten.1 hr
      obtain ⟨i, hi, hio⟩ := exists_left h2 ho
      obtain ⟨loc, hl⟩ := (petalId_known i).2 (hall i hi)
      obtain ⟨o', hp, hf⟩ := petal_ok h i loc hl
      rw [hio] at hp
      obtain rfl := Except.ok.inj hp
      obtain ⟨p, hpm, h3, h4, h5, h6⟩ := exists_left hf hro
      exact ⟨i, hi, by rw [h3]; exact hagree i loc hl, h5, fun c hc ec => h6 c hc (ec.trans h4)⟩
    · intro i hi c hc
      obtain ⟨o, ho, hio⟩ := exists_right h2 hi
      obtain ⟨loc, hl⟩ := (petalId_known i).2 (hall i hi)
      obtain ⟨o', hp, hf⟩ := petal_ok h i loc hl
      rw [hio] at hp
      obtain rfl := Except.ok.inj hp
      obtain ⟨r, hr, h3, h4, h5, h6⟩ := exists_right hf ((h.mem _ (c.posid, c.dev)).2 (List.mem_map_of_mem (f := fun c : Calib π => (c.posid, c.dev)) hc))
      exact ⟨r, List.mem_flatten.2 ⟨o, ho, hr⟩, h4, h5⟩
  · push Not at hall
    obtain ⟨i, hi, hn⟩ := hall
    have hex : ∃ i ∈ petals, ¬ (1 ≤ i ∧ i ≤ 11) := ⟨i, hi, by intro hc; have := hn hc.1; omega⟩
    have e : getPosparams db petals = (none, .keyError) := by
      unfold getPosparams; rw [k2 hex]
    rw [e]
    exact ⟨⟨fun _ => hex, fun _ => rfl⟩, fun _ => rfl, fun out ho => (nomatch ho)⟩
where
  exists_left {α β : Type} {R : α → β → Prop} {l : List α} {m : List β} (h : List.Forall₂ R l m) {b : β} (hb : b ∈ m) :
      ∃ a ∈ l, R a b := by
    induction h with
    | nil => cases hb
    | cons h1 _ ih =>
      rcases List.mem_cons.1 hb with rfl | hb
      · exact ⟨_, List.mem_cons_self, h1⟩
      · obtain ⟨a, ha, hr⟩ := ih hb
        exact ⟨a, List.mem_cons_of_mem _ ha, hr⟩
  exists_right {α β : Type} {R : α → β → Prop} {l : List α} {m : List β} (h : List.Forall₂ R l m) {a : α} (ha : a ∈ l) :
      ∃ b ∈ m, R a b := by
    induction h with
    | nil => cases ha
    | cons h1 _ ih =>
      rcases List.mem_cons.1 ha with rfl | ha
      · exact ⟨_, List.mem_cons_self, h1⟩
      · obtain ⟨b, hb, hr⟩ := ih ha
        exact ⟨b, List.mem_cons_of_mem _ hb, hr⟩

/-- **C108** (finding) A positioner that was at several device locations has as many rows in the table, all the same. -/
theorem C108_repeated {π : Type} (db : Db π) (h : Honest db) (i : ℤ) (out : List (Calib π × ℤ)) (ho : (getPosparams db [i]).1 = some out)
    (p : PyStr) : (out.map fun r => r.1.posid).count p =
      (((db.table i).filter fun c => decide (c.posid = p)).map Calib.dev).dedup.length := by
  have hb : 1 ≤ i ∧ i ≤ 11 := by
    by_contra hc
    rw [((C108_latest db h [i]).1).2 ⟨i, List.mem_singleton_self i, hc⟩] at ho
    cases ho
  obtain ⟨loc, hl⟩ := (petalId_known i).2 hb
  obtain ⟨o, hp, hf⟩ := petal_ok h i loc hl
  have e : out = o := by
    have : getPosparams db [i] = (some o, .sysExit 12) := by
      unfold getPosparams
      rw [List.mapM_cons, hp]
      simp [bind, Except.bind, pure, Except.pure]
    rw [this] at ho
    exact (Option.some.inj ho).symm
  subst e
  have hmap : (out.map fun r => r.1.posid) = (db.distinct ((db.table i).map fun c => (c.posid, c.dev))).map Prod.fst := by
    generalize db.distinct ((db.table i).map fun c => (c.posid, c.dev)) = D at hf
    clear hp ho
    induction hf with
    | nil => rfl
    | cons h1 _ ih => rw [List.map_cons, List.map_cons, ih, h1.2.1]
  rw [hmap]
  set D := db.distinct ((db.table i).map fun c => (c.posid, c.dev)) with hD
  have hnd := h.nodup ((db.table i).map fun c => (c.posid, c.dev))
  rw [← hD] at hnd
  have hcount : (D.map Prod.fst).count p = ((D.filter fun q => decide (q.1 = p)).map Prod.snd).length := by
    rw [List.length_map, List.count, List.countP_map, List.countP_eq_length_filter]
    congr 1
    apply List.filter_congr
    intro q _
    simp [Function.comp, Bool.beq_eq_decide_eq]
  rw [hcount]
  refine List.Perm.length_eq ((List.perm_ext_iff_of_nodup ?_ (List.nodup_dedup _)).2 ?_)
  · refine List.Nodup.map_on ?_ (hnd.filter _)
    intro x hx y hy e
    exact Prod.ext ((of_decide_eq_true (List.mem_filter.1 hx).2).trans (of_decide_eq_true (List.mem_filter.1 hy).2).symm) e
  · intro d
    rw [List.mem_dedup, List.mem_map, List.mem_map]
    constructor
    · rintro ⟨q, hq, rfl⟩
      obtain ⟨h1, h2⟩ := List.mem_filter.1 hq
      obtain ⟨c, hc, rfl⟩ := List.mem_map.1 ((h.mem _ _).1 h1)
      exact ⟨c, List.mem_filter.2 ⟨hc, h2⟩, rfl⟩
    · rintro ⟨c, hc, rfl⟩
      obtain ⟨h1, h2⟩ := List.mem_filter.1 hc
      exact ⟨(c.posid, c.dev), List.mem_filter.2 ⟨(h.mem _ _).2 (List.mem_map_of_mem (f := fun c : Calib π => (c.posid, c.dev)) h1), h2⟩, rfl⟩

/-- **C108** (finding) Petal 0, which is in the list of petals of `get_petal_ids` when it has a table, has a location for the other scripts, but
stops this one with a KeyError. -/
theorem C108_petal_zero {π : Type} (db : Db π) (h : Honest db) : (getPosparams db [0]) = (none, .keyError) ∧ Model.Dbutil.getPetalLoc 0 = .ok 0 := by
  refine ⟨?_, rfl⟩
  obtain ⟨h1, h2, -⟩ := C108_latest db h [0]
  have := h1.2 ⟨0, List.mem_singleton_self 0, by norm_num⟩
  exact Prod.ext this (h2 this)

/-- A name that is recognised. -/
example : Recognised Char.isAlpha Char.isDigit "/a/M00123_x.csv".toList "M00123".toList := by
  rw [← C108_recognised _ _ (by decide)]
  decide

/-- A database as in the hypotheses. -/
example : ∃ db : Db Unit, Honest db ∧ db.table 3 ≠ [] := by
  refine ⟨⟨fun _ => [⟨['M'], 5, 7, ()⟩], List.dedup, fun l => l.argmax Calib.time⟩, ⟨fun l => List.nodup_dedup l, fun l p => List.mem_dedup, ?_, ?_⟩,
    by simp⟩
  · intro l hl
    rcases hm : l.argmax Calib.time with _ | c
    · exact absurd (List.argmax_eq_none.1 hm) hl
    · exact ⟨c, hm⟩
  · intro l c hc
    exact ⟨List.argmax_mem hc, fun c' hc' => List.le_of_mem_argmax hc' hc⟩

/-- Tables as in the theorem on petals. -/
example (parseInt : PyStr → Option ℤ) (h : parseInt "3".toList = some 3) :
    (3 : ℤ) ∈ petalIds "positioner_moves_p".toList parseInt ["positioner_moves_p3".toList, "other".toList] := by
  refine (C108_petal_ids parseInt 'p' "ositioner_moves_p".toList _ ?_ 3).2 ⟨by norm_num, "3".toList, by decide, h⟩
  intro t ht hin
  simp only [List.mem_cons, List.not_mem_nil, or_false] at ht
  rcases ht with rfl | rfl
  · exact ⟨"3".toList, by decide, by decide⟩
  · exact absurd hin (by decide)

end Verif.Props.PosparamsJobs
