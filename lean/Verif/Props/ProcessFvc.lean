import Verif.Model.ProcessFvc
import Verif.Lemmas.Str
import Mathlib.Data.List.Basic
import Mathlib.Logic.Function.Basic

namespace Verif.Props
open Verif.Py Verif.Model.ProcessFvc Verif.Lemmas.Str

/-! ## C52: cached results -/

/-- A path `process_fvc` treats as an image whose cached table has a name ending with .csv. -/
def IsImage (f : PyStr) : Prop :=
  findPos ".csv".toList f = false ∧ pyIn ".fits".toList f = true ∧ endsWith ".csv".toList (outfilename f) = true

/-- What should be returned for an image: its table, None when the processing failed. -/
def expected {T : Type} (proc : PyStr → Except Int T) (f : PyStr) : Option T :=
  match proc f with
  | .ok t => some t
  | .error _ => none

/-- A history of calls (path, overwrite) of `process_fvc`; the files after it. -/
def filesAfter {T : Type} (proc : PyStr → Except Int T) (fs : Fs T) (h : List (PyStr × Bool)) : Fs T :=
  h.foldl (fun fs c => (processFvc proc c.1 c.2 fs).2) fs

namespace Pfv

theorem fresh {T : Type} (proc : PyStr → Except Int T) (hproc : ∀ f c, proc f = .error c → c ≠ 0) (f : PyStr) (hf : IsImage f)
    (ow : Bool) (fs : Fs T) (h : ow = true ∨ fs (outfilename f) = none) :
    (processFvc proc f ow fs).1 = .ok (expected proc f) ∧
    (processFvc proc f ow fs).2 = (match proc f with
      | .ok t => Function.update fs (outfilename f) (some t)
      | .error _ => fs) := by
  obtain ⟨h1, h2, h3⟩ := hf
  unfold processFvc
  rw [h1, h2]
  have hc : ((fs (outfilename f)).isSome && !ow) = false := by
    rcases h with h | h <;> simp [h]
  simp only [Bool.false_eq_true, if_false, Bool.not_true, hc]
  unfold run expected
  rw [if_pos h3]
  cases hp : proc f with
  | ok t => simp [Verif.Model.ProcessFvc.read, Except.map]
  | error c => simp [hproc f c hp]

theorem cached {T : Type} (proc : PyStr → Except Int T) (f : PyStr) (hf : IsImage f) (fs : Fs T) (t : T)
    (h : fs (outfilename f) = some t) : processFvc proc f false fs = (.ok (some t), fs) := by
  obtain ⟨h1, h2, h3⟩ := hf
  unfold processFvc
  rw [h1, h2]
  simp [h, Verif.Model.ProcessFvc.read, Except.map]

end Pfv
open Pfv

/-- C52: asked to overwrite, or with nothing cached, the image itself is processed (`none` when
that fails) and nothing but its cached table changes. -/
theorem C52_fresh {T : Type} (proc : PyStr → Except Int T) (hproc : ∀ f c, proc f = .error c → c ≠ 0) (f : PyStr)
    (hf : IsImage f) (ow : Bool) (fs : Fs T) (h : ow = true ∨ fs (outfilename f) = none) :
    (processFvc proc f ow fs).1 = .ok (expected proc f) ∧
    ∀ p, p ≠ outfilename f → (processFvc proc f ow fs).2 p = fs p := by
  obtain ⟨h1, h2⟩ := fresh proc hproc f hf ow fs h
  refine ⟨h1, ?_⟩
  intro p hp
  rw [h2]
  cases proc f with
  | ok t => exact Function.update_of_ne hp _ _
  | error c => rfl

/-- C52: as long as no two different images of the history have the same cache name (and their
cached tables did not exist before), every call returns the table of the image asked for. -/
theorem C52_history {T : Type} (proc : PyStr → Except Int T) (hproc : ∀ f c, proc f = .error c → c ≠ 0) (fs : Fs T)
    (h : List (PyStr × Bool)) (f : PyStr) (ow : Bool) (himg : IsImage f ∧ ∀ c ∈ h, IsImage c.1)
    (hdiff : ∀ c ∈ h, outfilename c.1 = outfilename f → c.1 = f) (hfs : fs (outfilename f) = none) :
    (processFvc proc f ow (filesAfter proc fs h)).1 = .ok (expected proc f) := by
  have inv : ∀ (h : List (PyStr × Bool)) (fs : Fs T), (∀ c ∈ h, IsImage c.1) → (∀ c ∈ h, outfilename c.1 = outfilename f → c.1 = f) →
      (fs (outfilename f) = none ∨ ∃ t, proc f = .ok t ∧ fs (outfilename f) = some t) →
      (filesAfter proc fs h (outfilename f) = none ∨ ∃ t, proc f = .ok t ∧ filesAfter proc fs h (outfilename f) = some t) := by
    intro h
    induction h with
    | nil => intro fs _ _ h0; exact h0
    | cons c h ih =>
      intro fs hi hd h0
      unfold filesAfter
      rw [List.foldl_cons]
      apply ih _ (fun x hx => hi x (by simp [hx])) (fun x hx => hd x (by simp [hx]))
      by_cases hc : (c.2 = true ∨ fs (outfilename c.1) = none)
      · obtain ⟨h1, h2⟩ := fresh proc hproc c.1 (hi c (by simp)) c.2 fs hc
        by_cases he : outfilename c.1 = outfilename f
        · have e := hd c (by simp) he
          rw [h2, e]
          cases hp : proc f with
          | ok t => exact Or.inr ⟨t, rfl, by simp⟩
          | error k =>
            rcases h0 with h0 | ⟨t, h0, -⟩
            · exact Or.inl h0
            · rw [hp] at h0; cases h0
        · have : (processFvc proc c.1 c.2 fs).2 (outfilename f) = fs (outfilename f) :=
            (C52_fresh proc hproc c.1 (hi c (by simp)) c.2 fs hc).2 _ (Ne.symm he)
          rw [this]; exact h0
      · push Not at hc
        obtain ⟨hc1, hc2⟩ := hc
        obtain ⟨t, ht⟩ := Option.ne_none_iff_exists'.1 hc2
        have h1 : c.2 = false := by simpa using hc1
        rw [h1, cached proc c.1 (hi c (by simp)) fs t ht]
        exact h0
  rcases inv h fs himg.2 hdiff (Or.inl hfs) with h0 | ⟨t, h1, h2⟩
  · exact (fresh proc hproc f himg.1 ow _ (Or.inr h0)).1
  · cases ow with
    | true => exact (fresh proc hproc f himg.1 true _ (Or.inl rfl)).1
    | false =>
      rw [cached proc f himg.1 _ t h2]
      unfold expected
      rw [h1]

/-- C52 (finding): the cache name ignores the directory (and the .fz ending): after processing
one image another one gives the table of the first. -/
theorem C52_collision : ∃ (proc : PyStr → Except Int ℕ) (f g : PyStr), IsImage f ∧ IsImage g ∧
    proc f = .ok 1 ∧ proc g = .ok 2 ∧
    (processFvc proc g false (filesAfter proc (fun _ => none) [(f, false)])).1 = .ok (some 1) := by
  refine ⟨fun p => if p = "/a/x.fits".toList then .ok 1 else .ok 2, "/a/x.fits".toList, "/b/x.fits.fz".toList,
    ⟨by decide, by decide, by decide⟩, ⟨by decide, by decide, by decide⟩, by simp, ?_, ?_⟩
  · exact if_neg (by decide)
  · rw [cached _ _ ⟨by decide, by decide, by decide⟩ _ 1]
    have hf : IsImage "/a/x.fits".toList := ⟨by decide, by decide, by decide⟩
    have := (fresh (T := ℕ) (fun p => if p = "/a/x.fits".toList then .ok 1 else .ok 2)
      (by intro f c h; split_ifs at h) "/a/x.fits".toList hf false (fun _ => none) (Or.inr rfl)).2
    unfold filesAfter
    rw [List.foldl_cons, List.foldl_nil, this]
    simp only [if_true]
    have e : outfilename "/b/x.fits.fz".toList = outfilename "/a/x.fits".toList := by decide
    rw [e, Function.update_self]

namespace Pfv

theorem intercalate_last (sep : PyStr) (l : List PyStr) (x : PyStr) : ∃ a, sep.intercalate (l ++ [x]) = a ++ x ∧
    (l ≠ [] → sep <:+ a) := by
  induction l with
  | nil => exact ⟨[], by simp [List.intercalate], fun h => absurd rfl h⟩
  | cons p l ih =>
    obtain ⟨a, h1, h2⟩ := ih
    refine ⟨p ++ sep ++ a, ?_, ?_⟩
    · rw [List.cons_append, intercalate_cons (by simp), h1]; simp
    · intro _
      by_cases hl : l = []
      · subst hl
        have : a = [] := by
          have h3 : x = a ++ x := by simpa [List.intercalate] using h1
          simpa using h3
        subst this
        exact ⟨p, by simp⟩
      · exact (h2 hl).trans (List.suffix_append _ _)

/-- `replace` keeps the last character of a text that does not end with the old text. -/
theorem last_replace {old new s : PyStr} (ho : old ≠ []) (hs : s ≠ []) (h : ¬ old <:+ s) :
    (replace old new s).getLast? = s.getLast? := by
  have hne : split old s ≠ [] := splitAux_ne_nil _ _ _ _
  obtain ⟨l, x, hx⟩ : ∃ l x, split old s = l ++ [x] := ⟨_, _, (List.dropLast_append_getLast hne).symm⟩
  have h1 := intercalate_split ho s
  rw [hx] at h1
  obtain ⟨a, ha1, ha2⟩ := intercalate_last old l x
  rw [ha1] at h1
  have hxne : x ≠ [] := by
    rintro rfl
    rw [List.append_nil] at h1
    by_cases hl : l = []
    · subst hl
      have : a = [] := by simpa [List.intercalate] using ha1.symm
      exact hs (by rw [← h1, this])
    · exact h (h1 ▸ ha2 hl)
  unfold replace
  rw [hx]
  obtain ⟨b, hb, -⟩ := intercalate_last new l x
  rw [hb, ← h1, List.getLast?_append_of_ne_nil _ hxne, List.getLast?_append_of_ne_nil _ hxne]

end Pfv

/-- C52 (finding): an image named *.fits.gz never gives a table: the name of its output does not
end with .csv, which the processing refuses. -/
theorem C52_gz {T : Type} (proc : PyStr → Except Int T) (p : PyStr) (ow : Bool) (fs : Fs T)
    (hcsv : findPos ".csv".toList (p ++ ".fits.gz".toList) = false) (hfs : fs (outfilename (p ++ ".fits.gz".toList)) = none) :
    processFvc proc (p ++ ".fits.gz".toList) ow fs = (.ok none, fs) := by
  set s := p ++ ".fits.gz".toList with hs
  have hsn : s ≠ [] := by rw [hs]; simp
  have hl0 : s.getLast? = some 'z' := by
    rw [hs, List.getLast?_append_of_ne_nil _ (by decide)]; decide
  have hin : pyIn ".fits".toList s = true := by
    have := pyIn_append p ".fits".toList ".gz".toList
    rwa [List.append_assoc] at this
  have h1 : ¬ ".fits.fz".toList <:+ s := by
    rw [hs]
    intro h
    have := List.suffix_of_suffix_length_le h (List.suffix_append p ".fits.gz".toList) (by decide)
    revert this; decide
  have hl1 := last_replace (new := ".csv".toList) (by decide : ".fits.fz".toList ≠ []) hsn h1
  rw [hl0] at hl1
  set s1 := replace ".fits.fz".toList ".csv".toList s with hs1
  have h2 : ¬ ".fits".toList <:+ s1 := by
    rintro ⟨a, ha⟩
    rw [← ha, List.getLast?_append_of_ne_nil _ (by decide)] at hl1
    revert hl1; decide
  have hs1n : s1 ≠ [] := by rintro e; rw [e] at hl1; cases hl1
  have hl2 := last_replace (new := ".csv".toList) (by decide : ".fits".toList ≠ []) hs1n h2
  rw [hl1] at hl2
  have hl3 : (outfilename s).getLast? = some 'z' := by
    unfold outfilename basename
    rw [← hs1]
    set s2 := replace ".fits".toList ".csv".toList s1
    have : (s2.reverse.takeWhile (fun c => decide (c ≠ '/'))).head? = some 'z' := by
      rw [List.getLast?_eq_head?_reverse] at hl2
      cases hr : s2.reverse with
      | nil => rw [hr] at hl2; cases hl2
      | cons c t =>
        rw [hr] at hl2
        have : c = 'z' := by simpa using hl2
        subst this
        rw [List.takeWhile_cons, if_pos (by decide)]; rfl
    rw [List.getLast?_append_of_ne_nil]
    · rw [List.getLast?_reverse]; exact this
    · intro e
      have e' : s2.reverse.takeWhile (fun c => decide (c ≠ '/')) = [] := by simpa using e
      rw [e'] at this; cases this
  have hend : endsWith ".csv".toList (outfilename s) = false := by
    unfold endsWith
    rw [Bool.eq_false_iff]
    intro h
    obtain ⟨a, ha⟩ := List.isSuffixOf_iff_suffix.1 h
    rw [← ha, List.getLast?_append_of_ne_nil _ (by decide)] at hl3
    revert hl3; decide
  unfold processFvc
  rw [hcsv, hin]
  simp only [Bool.false_eq_true, if_false, Bool.not_true, hfs, Option.isSome_none, Bool.false_and]
  unfold run
  rw [hend]
  simp

/-- C52: a table path (.csv) is read directly; a path that is neither a table nor an image ends the
program with code 12. -/
theorem C52_other {T : Type} (proc : PyStr → Except Int T) (f : PyStr) (ow : Bool) (fs : Fs T) :
    (findPos ".csv".toList f = true → ∀ t, fs f = some t → processFvc proc f ow fs = (.ok (some t), fs)) ∧
    (pyIn ".csv".toList f = false → pyIn ".fits".toList f = false →
      processFvc proc f ow fs = (.error (.sysExit 12), fs)) := by
  constructor
  · intro h t ht
    unfold processFvc
    rw [if_pos h]
    simp [Verif.Model.ProcessFvc.read, ht, Except.map]
  · intro h1 h2
    unfold processFvc findPos
    rw [h1, h2]
    simp

example : IsImage "/data/20200101/fvc-00012345.fits.fz".toList ∧
    outfilename "/data/20200101/fvc-00012345.fits.fz".toList = "/tmp/fvc-00012345.csv".toList :=
  ⟨⟨by decide, by decide, by decide⟩, by decide⟩

/-! ## C53: exit code of `fvc_proc` -/

/-- C53: invalid arguments give a non zero code and no output. -/
theorem C53_invalid (a : Args) (images : List Image) :
    (¬ ".csv".toList <:+ a.outfile → fvcProc a images = (12, [])) ∧
    (".csv".toList <:+ a.outfile → a.threshold = true → fvcProc a images = (1, [])) ∧
    (".csv".toList <:+ a.outfile → a.threshold = false → findPos ".fits".toList a.infile = false →
      findPos ".csv".toList a.infile = false → fvcProc a images = (13, [])) := by
  have he : endsWith ".csv".toList a.outfile = true ↔ ".csv".toList <:+ a.outfile := List.isSuffixOf_iff_suffix
  refine ⟨?_, ?_, ?_⟩
  · intro h
    unfold fvcProc
    rw [if_pos]
    rw [← he] at h
    simpa using h
  · intro h ht
    unfold fvcProc
    rw [he.2 h, ht]; rfl
  · intro h ht h1 h2
    unfold fvcProc
    rw [he.2 h, ht, h1, h2]; rfl

/-- The image is left out because of the limits on the number of spots. -/
def OutsideLimits (a : Args) (im : Image) : Prop :=
  (∃ m, a.minSpots = some m ∧ im.nspots < m) ∨ (∃ m, a.maxSpots = some m ∧ m < im.nspots)

/-- Valid arguments. -/
def ValidArgs (a : Args) : Prop :=
  ".csv".toList <:+ a.outfile ∧ a.threshold = false ∧ (findPos ".fits".toList a.infile = true ∨ findPos ".csv".toList a.infile = true)

namespace Pfv

theorem skipped_iff (a : Args) (im : Image) : skipped a im = true ↔ OutsideLimits a im := by
  unfold skipped OutsideLimits
  cases a.minSpots <;> cases a.maxSpots <;> simp

theorem fvcProc_valid (a : Args) (h : ValidArgs a) (images : List Image) : fvcProc a images = procLoop a images.zipIdx [] := by
  obtain ⟨h1, h2, h3⟩ := h
  have he : endsWith ".csv".toList a.outfile = true := List.isSuffixOf_iff_suffix.2 h1
  unfold fvcProc
  rw [he, h2]
  have h4 : (!findPos ".fits".toList a.infile && !findPos ".csv".toList a.infile) = false := by
    rcases h3 with h3 | h3 <;> rw [h3] <;> simp
  rw [h4]
  rfl

/-- An image that stops the program. -/
def Bad (a : Args) (im : Image) : Prop := ¬ OutsideLimits a im ∧ a.noMatch = false ∧ im.nfid < 3

/-- Output files for the images not left out. -/
def outputs (a : Args) (l : List (Image × ℕ)) : List PyStr :=
  (l.filter fun p => !skipped a p.1).map fun p => outOf a p.2 p.1

theorem loop_ok (a : Args) (l : List (Image × ℕ)) (w : List PyStr) (h : ∀ p ∈ l, ¬ Bad a p.1) (r : List (Image × ℕ)) :
    procLoop a (l ++ r) w = procLoop a r (w ++ outputs a l) := by
  induction l generalizing w with
  | nil => simp [outputs]
  | cons p l ih =>
    obtain ⟨im, i⟩ := p
    have hb := h (im, i) (by simp)
    have ih' := fun w => ih w (fun p hp => h p (by simp [hp]))
    rw [List.cons_append, procLoop]
    cases hs : skipped a im with
    | true =>
      rw [if_pos rfl, ih']
      simp [outputs, List.filter_cons, hs]
    | false =>
      have hno : ¬ OutsideLimits a im := by rw [← skipped_iff, hs]; simp
      have hout : outputs a ((im, i) :: l) = outOf a i im :: outputs a l := by
        simp [outputs, List.filter_cons, hs]
      rw [if_neg (by simp), hout]
      cases hm : a.noMatch with
      | true => rw [if_pos rfl, ih']; simp
      | false =>
        have h3 : ¬ im.nfid < 3 := fun h3 => hb ⟨hno, hm, h3⟩
        rw [if_neg (by simp), if_neg h3, ih']; simp

theorem loop_bad (a : Args) (im : Image) (i : ℕ) (r : List (Image × ℕ)) (w : List PyStr) (h : Bad a im) :
    procLoop a ((im, i) :: r) w = (13, w) := by
  obtain ⟨h1, h2, h3⟩ := h
  rw [procLoop, if_neg (by rw [skipped_iff]; exact h1), h2, if_neg (by simp), if_pos h3]

end Pfv

/-- C53: with valid arguments the code is 0 iff no image within the limits on the number of spots
has fewer than three matched fiducials (or nothing is matched), and then a table was written for
exactly the images within the limits; otherwise the code is 13 and only the images before the
first bad one have tables. -/
theorem C53_code (a : Args) (h : ValidArgs a) (images : List Image) :
    ((∀ im ∈ images, OutsideLimits a im ∨ a.noMatch = true ∨ 3 ≤ im.nfid) →
      ∃ keep : Image → Bool, (∀ im, keep im = true ↔ ¬ OutsideLimits a im) ∧
        fvcProc a images = (0, (images.zipIdx.filter fun p => keep p.1).map fun p => outOf a p.2 p.1)) ∧
    (∀ pre im post, images = pre ++ im :: post →
      (∀ x ∈ pre, OutsideLimits a x ∨ a.noMatch = true ∨ 3 ≤ x.nfid) →
      ¬ OutsideLimits a im → a.noMatch = false → im.nfid < 3 →
      ∃ keep : Image → Bool, (∀ im, keep im = true ↔ ¬ OutsideLimits a im) ∧
        fvcProc a images = (13, (pre.zipIdx.filter fun p => keep p.1).map fun p => outOf a p.2 p.1)) := by
  have hkeep : ∀ im, (!skipped a im) = true ↔ ¬ OutsideLimits a im := by
    intro im; rw [← skipped_iff]; simp
  have hnb : ∀ im, (OutsideLimits a im ∨ a.noMatch = true ∨ 3 ≤ im.nfid) → ¬ Bad a im := by
    rintro im h ⟨h1, h2, h3⟩
    rcases h with h | h | h
    · exact h1 h
    · rw [h2] at h; cases h
    · omega
  constructor
  · intro hall
    refine ⟨fun im => !skipped a im, hkeep, ?_⟩
    rw [fvcProc_valid a h]
    have := loop_ok a images.zipIdx [] (by
      rintro ⟨im, i⟩ hp
      refine hnb im (hall im ?_)
      exact List.mem_of_getElem? (List.mem_zipIdx_iff_getElem?.1 hp)) []
    rw [List.append_nil] at this
    rw [this, procLoop]
    simp [outputs]
  · intro pre im post e hpre h1 h2 h3
    refine ⟨fun im => !skipped a im, hkeep, ?_⟩
    rw [fvcProc_valid a h, e, List.zipIdx_append, List.zipIdx_cons]
    rw [loop_ok a pre.zipIdx [] (by
      rintro ⟨x, i⟩ hp
      refine hnb x (hpre x ?_)
      exact List.mem_of_getElem? (List.mem_zipIdx_iff_getElem?.1 hp))]
    rw [loop_bad a im _ _ _ ⟨h1, h2, h3⟩]
    simp [outputs]

/-- C53 (finding): an image with too few (or too many) spots gives code 0 and no table. -/
theorem C53_zero_without_output (a : Args) (h : ValidArgs a) (im : Image) (hl : OutsideLimits a im) :
    fvcProc a [im] = (0, []) := by
  obtain ⟨keep, h1, h2⟩ := (C53_code a h [im]).1 (by simp [hl])
  rw [h2]
  have : keep im = false := by
    rw [Bool.eq_false_iff]; exact fun hk => (h1 im).1 hk hl
  simp [this]

/-- C53: in sequence mode the tables go to different files, named after the extensions. -/
theorem C53_sequence_names (a : Args) (hs : a.sequence = true) (p : PyStr) (hp : '.' ∉ p) (ho : a.outfile = p ++ ".csv".toList)
    (i : ℕ) (im : Image) (e : PyStr) (he : im.ext = some e) :
    outOf a i im = p ++ '-' :: e ++ ".csv".toList := by
  unfold outOf
  rw [if_pos hs, he, ho]
  unfold replace
  have h1 : split ".csv".toList (p ++ ".csv".toList) = [p, []] := by
    have := split_two (s0 := '.') (s' := "csv".toList) (a := p) (b := []) (fun c hc e => hp (e ▸ hc)) (by simp)
    simpa using this
  simp only [h1]
  simp [List.intercalate, List.intersperse]

/-- C53: `--extname last` takes the extension with the largest number among those below the number
of extensions. -/
theorem C53_last (names : List PyStr) (e : PyStr) :
    lastExt names = some e ↔ ∃ i < names.length, e = 'f' :: fmt4 i ∧ e ∈ names ∧
      ∀ j, i < j → j < names.length → ('f' :: fmt4 j) ∉ names := by
  unfold lastExt
  have key : ∀ n, (List.range n).foldl (fun r i => if ('f' :: fmt4 i) ∈ names then some ('f' :: fmt4 i) else r) none = some e ↔
      ∃ i < n, e = 'f' :: fmt4 i ∧ e ∈ names ∧ ∀ j, i < j → j < n → ('f' :: fmt4 j) ∉ names := by
    intro n
    induction n with
    | zero => simp
    | succ n ih =>
      rw [List.range_succ, List.foldl_append, List.foldl_cons, List.foldl_nil]
      split_ifs with h
      · rw [Option.some.injEq]
        constructor
        · intro he
          exact ⟨n, by omega, he.symm, he ▸ h, fun j h1 h2 => by omega⟩
        · rintro ⟨i, hi, he, -, hj⟩
          by_cases hin : i = n
          · rw [he, hin]
          · exact absurd h (hj n (by omega) (by omega))
      · rw [ih]
        constructor
        · rintro ⟨i, hi, he, hm, hj⟩
          refine ⟨i, by omega, he, hm, ?_⟩
          intro j h1 h2
          by_cases hjn : j = n
          · rw [hjn]; exact h
          · exact hj j h1 (by omega)
        · rintro ⟨i, hi, he, hm, hj⟩
          refine ⟨i, ?_, he, hm, fun j h1 h2 => hj j h1 (by omega)⟩
          by_contra hc
          have : i = n := by omega
          subst this
          exact h (he ▸ hm)
  exact key names.length

/-- C53 (finding): so when the numbering does not start at 0 it is not the last one. -/
theorem C53_last_misses : lastExt ["f0001".toList, "f0002".toList] = some "f0001".toList := by decide

example : ValidArgs ⟨"fvc.fits".toList, "out.csv".toList, false, some 100, none, false, false⟩ ∧
    OutsideLimits ⟨"fvc.fits".toList, "out.csv".toList, false, some 100, none, false, false⟩ ⟨99, 50, none⟩ :=
  ⟨⟨by decide, rfl, Or.inl (by decide)⟩, Or.inl ⟨100, rfl, by decide⟩⟩

end Verif.Props
