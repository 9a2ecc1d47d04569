import Verif.Model.DataDir
import Verif.Props.Ptl2fp
import Verif.Props.Gfa2fp

/-!
# C120: data read once per process
-/

namespace Verif.Props.DataDir
open Verif.Py Verif.Model Verif.Model.DataDir
open Verif.Model.Ptl2fp (V3 ptl2fp fp2ptl)
open Verif.Model.Gfa2fp (GRow Transforms fitGfa)

/-- The result of a conversion between petal and focal plane is the one with alignment `d`. -/
def Exactly (d : Ptl2fp.Dict) : Op → Res → Prop
  | .toFp petal p, r => r = .point (ptl2fp d petal p)
  | .toPtl petal p, r => r = .point (fp2ptl d petal p)
  | _, _ => True

/-- The same, for results that are no exception. -/
def Follows (d : Ptl2fp.Dict) : Op → Res → Prop
  | .toFp petal p, .point (.ok q) => ptl2fp d petal p = .ok q
  | .toPtl petal p, .point (.ok q) => fp2ptl d petal p = .ok q
  | _, _ => True

/-- The result of a conversion of pixels is the one with transforms `t`. -/
def ExactlyGfa (t : Transforms) : Op → Res → Prop
  | .toMm petal g, r => r = .pixels (Gfa2fp.gfa2fp (some t) (.error .fileNotFound) petal g).1
  | .toPix petal g, r => r = .pixels (Gfa2fp.fp2gfa (some t) (.error .fileNotFound) petal g).1
  | _, _ => True

/-- The same, for results that are no exception. -/
def FollowsGfa (t : Transforms) : Op → Res → Prop
  | .toMm petal g, .pixels (.ok v) => (Gfa2fp.gfa2fp (some t) (.error .fileNotFound) petal g).1 = .ok v
  | .toPix petal g, .pixels (.ok v) => (Gfa2fp.fp2gfa (some t) (.error .fileNotFound) petal g).1 = .ok v
  | _, _ => True

/-- The file of alignments in use now: DESIMETER_DATA, or the directory of the package. -/
def alignFile (pkg : PyStr) (s : Sess) : Option (Option Ptl2fp.Dict) :=
  s.files.align (PlotPosmoves.join (s.env.getD pkg) "petal-alignments.yaml".toList)

/-- The metrology in use now. -/
def metroFile (pkg : PyStr) (s : Sess) : Option (List GRow) :=
  s.files.metro (PlotPosmoves.join (s.env.getD pkg) "fp-metrology.csv".toList)

theorem dataDir_eq (pkg : PyStr) (e : Option PyStr) : dataDir pkg e = e.getD pkg := by
  cases e <;> rfl

theorem getAlign_some (pkg : PyStr) (s : Sess) (d : Ptl2fp.Dict) (h : s.align = some d) : getAlign pkg s = (.ok (some d), some d) := by
  unfold getAlign
  rw [h]

theorem getAlign_none (pkg : PyStr) (s : Sess) (h : s.align = none) : getAlign pkg s =
    match alignFile pkg s with
    | some c => (.ok c, c)
    | none => (.error .fileNotFound, none) := by
  unfold getAlign alignFile
  rw [h, dataDir_eq]
  generalize s.files.align _ = c
  cases c <;> rfl

theorem step_keeps (pkg : PyStr) (s : Sess) (d : Ptl2fp.Dict) (h : s.align = some d) (o : Op) :
    (step pkg s o).2.align = some d ∧ Exactly d o (step pkg s o).1 := by
  cases o with
  | toFp petal p => simp [step, getAlign_some pkg s d h, Exactly, withAlign]
  | toPtl petal p => simp [step, getAlign_some pkg s d h, Exactly, withAlign]
  | _ => exact ⟨h, trivial⟩

theorem exactly_follows (d : Ptl2fp.Dict) (o : Op) (r : Res) (h : Exactly d o r) : Follows d o r := by
  cases o with
  | toFp petal p =>
    have h : r = .point (ptl2fp d petal p) := h
    subst h
    rcases e : ptl2fp d petal p with _ | q
    · trivial
    · exact e
  | toPtl petal p =>
    have h : r = .point (fp2ptl d petal p) := h
    subst h
    rcases e : fp2ptl d petal p with _ | q
    · trivial
    · exact e
  | _ => exact trivial

theorem run_keeps (pkg : PyStr) (s : Sess) (d : Ptl2fp.Dict) (h : s.align = some d) (os : List Op) :
    ∀ x ∈ os.zip (run pkg s os), Exactly d x.1 x.2 := by
  induction os generalizing s with
  | nil => simp [run]
  | cons o os ih =>
    obtain ⟨h1, h2⟩ := step_keeps pkg s d h o
    intro x hx
    rw [run, List.zip_cons_cons] at hx
    rcases List.mem_cons.1 hx with rfl | hx
    · exact h2
    · exact ih _ h1 x hx

/-- **C120** In a process all conversions between petal and focal plane, from any state and whatever changes in between, are made with one and the same set of alignments. -/
theorem C120_one_alignment (pkg : PyStr) (s : Sess) (os : List Op) : ∃ d : Ptl2fp.Dict, ∀ x ∈ os.zip (run pkg s os), Follows d x.1 x.2 := by
  induction os generalizing s with
  | nil => exact ⟨fun _ => none, by simp [run]⟩
  | cons o os ih =>
    rcases e : (step pkg s o).2.align with _ | d
    · obtain ⟨d, hd⟩ := ih (step pkg s o).2
      refine ⟨d, ?_⟩
      intro x hx
      rw [run, List.zip_cons_cons] at hx
      rcases List.mem_cons.1 hx with rfl | hx
      · have key : ∀ (f : Ptl2fp.Dict → Except PyErr V3) (q : V3), (getAlign pkg s).2 = none → withAlign (getAlign pkg s).1 f ≠ .ok q := by
          intro f q h1 h2
          unfold getAlign at h1 h2
          split at h1
          · cases h1
          · split at h1
            · dsimp only at h1
              subst h1
              simp_all [withAlign]
            · simp_all [withAlign]
        cases o with
        | toFp petal p =>
          show Follows d (.toFp petal p) (.point (withAlign (getAlign pkg s).1 fun d => ptl2fp d petal p))
          rcases e2 : withAlign (getAlign pkg s).1 fun d => ptl2fp d petal p with _ | q
          · trivial
          · exact absurd e2 (key _ q e)
        | toPtl petal p =>
          show Follows d (.toPtl petal p) (.point (withAlign (getAlign pkg s).1 fun d => fp2ptl d petal p))
          rcases e2 : withAlign (getAlign pkg s).1 fun d => fp2ptl d petal p with _ | q
          · trivial
          · exact absurd e2 (key _ q e)
        | _ => exact trivial
      · exact hd x hx
    · refine ⟨d, ?_⟩
      intro x hx
      rw [run, List.zip_cons_cons] at hx
      rcases List.mem_cons.1 hx with rfl | hx
      · have key : ∀ f : Ptl2fp.Dict → Except PyErr V3, (getAlign pkg s).2 = some d → withAlign (getAlign pkg s).1 f = f d := by
          intro f h1
          unfold getAlign at h1 ⊢
          split at h1
          · simp_all [withAlign]
          · split at h1
            · dsimp only at h1
              subst h1
              simp_all [withAlign]
            · cases h1
        cases o with
        | toFp petal p =>
          refine exactly_follows _ _ _ ?_
          show Res.point (withAlign (getAlign pkg s).1 fun d => ptl2fp d petal p) = _
          rw [key _ e]
        | toPtl petal p =>
          refine exactly_follows _ _ _ ?_
          show Res.point (withAlign (getAlign pkg s).1 fun d => fp2ptl d petal p) = _
          rw [key _ e]
        | _ => exact trivial
      · exact exactly_follows _ _ _ (run_keeps pkg _ d e os x hx)

/-- **C120** So a point converted at any time of the process is converted back to itself at any other time, earlier or later, even if DESIMETER_DATA or the files are changed in between. -/
theorem C120_round_trip (pkg : PyStr) (s : Sess) (os : List Op) (petal : ℕ) (p q p' : V3)
    (h1 : (Op.toFp petal p, Res.point (.ok q)) ∈ os.zip (run pkg s os)) (h2 : (Op.toPtl petal q, Res.point (.ok p')) ∈ os.zip (run pkg s os)) : p' = p := by
  obtain ⟨d, hd⟩ := C120_one_alignment pkg s os
  have a1 : ptl2fp d petal p = .ok q := hd _ h1
  have a2 : fp2ptl d petal q = .ok p' := hd _ h2
  have h := (C10_inverse d petal p).1
  rw [a1] at h
  have h : fp2ptl d petal q = (if (d petal).isSome then .ok p else .error .keyError) := h
  rw [a2] at h
  split_ifs at h
  exact Except.ok.inj h

/-- **C120** The set is the one in the data directory when it is first needed: then, and for ever after in this process, the results are exactly those with it (`KeyError` for petals it does not have). -/
theorem C120_first_use (pkg : PyStr) (s : Sess) (h : s.align = none) (d : Ptl2fp.Dict) (hf : alignFile pkg s = some (some d)) (o : Op)
    (ho : (∃ petal p, o = .toFp petal p) ∨ ∃ petal p, o = .toPtl petal p) (os : List Op) : ∀ x ∈ (o :: os).zip (run pkg s (o :: os)), Exactly d x.1 x.2 := by
  have hg := getAlign_none pkg s h
  rw [hf] at hg
  have hg : getAlign pkg s = (.ok (some d), some d) := hg
  have hs : (step pkg s o).2.align = some d ∧ Exactly d o (step pkg s o).1 := by
    rcases ho with ⟨petal, p, rfl⟩ | ⟨petal, p, rfl⟩ <;> simp [step, hg, Exactly, withAlign]
  intro x hx
  rw [run, List.zip_cons_cons] at hx
  rcases List.mem_cons.1 hx with rfl | hx
  · exact hs.2
  · exact run_keeps pkg _ d hs.1 os x hx

/-- **C120** A first use that fails, without file (`FileNotFoundError`) or with a file without entries (`TypeError`), is tried again at the next use: the state does not change. -/
theorem C120_retry (pkg : PyStr) (s : Sess) (h : s.align = none) (petal : ℕ) (p : V3) :
    (alignFile pkg s = none → step pkg s (.toFp petal p) = (.point (.error .fileNotFound), s) ∧ step pkg s (.toPtl petal p) = (.point (.error .fileNotFound), s)) ∧
    (alignFile pkg s = some none → step pkg s (.toFp petal p) = (.point (.error .typeError), s) ∧ step pkg s (.toPtl petal p) = (.point (.error .typeError), s)) := by
  have hg := getAlign_none pkg s h
  obtain ⟨env, files, al, gfa⟩ := s
  dsimp only at h
  subst h
  constructor
  all_goals
    intro hf
    rw [hf] at hg
    dsimp only at hg
    simp [step, hg, withAlign]

/-- **C120** The metrology is read anew at each call: it is that of the data directory at this time. -/
theorem C120_metrology (pkg : PyStr) (s : Sess) : step pkg s .metrology =
    (.table (match metroFile pkg s with
      | some t => .ok t
      | none => .error .fileNotFound), s) := by
  unfold step loadMetrology metroFile
  rw [dataDir_eq]
  generalize s.files.metro _ = c
  cases c <;> rfl

/-- **C120** (finding) After a change of DESIMETER_DATA from `a` to `b` the metrology is that of `b` while conversions between petal and focal plane go on with the alignments of `a`, and so differ from what
a new process with `b` computes wherever the alignments differ. -/
theorem C120_stale (pkg : PyStr) (s : Sess) (h : s.align = none) (a b : PyStr) (da db : Ptl2fp.Dict) (ha : alignFile pkg { s with env := some a } = some (some da))
    (hb : alignFile pkg { s with env := some b } = some (some db)) (petal : ℕ) (p : V3) (hne : ptl2fp da petal p ≠ ptl2fp db petal p) :
    run pkg s [.setenv (some a), .toFp petal p, .setenv (some b), .toFp petal p, .metrology] =
      [.done, .point (ptl2fp da petal p), .done, .point (ptl2fp da petal p), .table (match metroFile pkg { s with env := some b } with
        | some t => .ok t
        | none => .error .fileNotFound)] ∧
    run pkg s [.setenv (some b), .toFp petal p] = [.done, .point (ptl2fp db petal p)] ∧ Res.point (ptl2fp da petal p) ≠ Res.point (ptl2fp db petal p) := by
  have hga := getAlign_none pkg { s with env := some a } h
  rw [ha] at hga
  have hgb := getAlign_none pkg { s with env := some b } h
  rw [hb] at hgb
  dsimp only at hga hgb
  have hgc := getAlign_some pkg { s with env := some b, align := some da } da rfl
  refine ⟨?_, ?_, fun e => hne (Res.point.inj e)⟩
  · have hm := C120_metrology pkg { s with env := some b, align := some da }
    simp only [run, step, hga, hgc, withAlign] at hm ⊢
    rw [(Prod.mk.inj hm).1]
    rfl
  · simp only [run, step, hgb, withAlign]

/-! ## Pixels of the guide cameras -/

theorem gfa_some (t : Transforms) (load : Except PyErr (List GRow)) (petal : ℤ) (g : List (ℝ × ℝ)) :
    Gfa2fp.gfa2fp (some t) load petal g = ((Gfa2fp.gfa2fp (some t) (.error .fileNotFound) petal g).1, some t) ∧
    Gfa2fp.fp2gfa (some t) load petal g = ((Gfa2fp.fp2gfa (some t) (.error .fileNotFound) petal g).1, some t) := ⟨rfl, rfl⟩

theorem stepGfa_keeps (pkg : PyStr) (s : Sess) (t : Transforms) (h : s.gfa = some t) (o : Op) :
    (step pkg s o).2.gfa = some t ∧ ExactlyGfa t o (step pkg s o).1 := by
  cases o with
  | toMm petal g =>
    simp only [step, h, ExactlyGfa]
    rw [(gfa_some t _ petal g).1]
    exact ⟨rfl, rfl⟩
  | toPix petal g =>
    simp only [step, h, ExactlyGfa]
    rw [(gfa_some t _ petal g).2]
    exact ⟨rfl, rfl⟩
  | _ => exact ⟨h, trivial⟩

theorem runGfa_keeps (pkg : PyStr) (s : Sess) (t : Transforms) (h : s.gfa = some t) (os : List Op) :
    ∀ x ∈ os.zip (run pkg s os), ExactlyGfa t x.1 x.2 := by
  induction os generalizing s with
  | nil => simp [run]
  | cons o os ih =>
    obtain ⟨h1, h2⟩ := stepGfa_keeps pkg s t h o
    intro x hx
    rw [run, List.zip_cons_cons] at hx
    rcases List.mem_cons.1 hx with rfl | hx
    · exact h2
    · exact ih _ h1 x hx

theorem exactlyGfa_follows (t : Transforms) (o : Op) (r : Res) (h : ExactlyGfa t o r) : FollowsGfa t o r := by
  cases o with
  | toMm petal g =>
    have h : r = .pixels (Gfa2fp.gfa2fp (some t) (.error .fileNotFound) petal g).1 := h
    subst h
    rcases e : (Gfa2fp.gfa2fp (some t) (.error .fileNotFound) petal g).1 with _ | q
    · trivial
    · exact e
  | toPix petal g =>
    have h : r = .pixels (Gfa2fp.fp2gfa (some t) (.error .fileNotFound) petal g).1 := h
    subst h
    rcases e : (Gfa2fp.fp2gfa (some t) (.error .fileNotFound) petal g).1 with _ | q
    · trivial
    · exact e
  | _ => exact trivial

theorem transforms_cases (load : Except PyErr (List GRow)) :
    (∃ t, Gfa2fp.getTransforms none load = (.ok t, some t)) ∨ ∃ e, Gfa2fp.getTransforms none load = (.error e, none) := by
  unfold Gfa2fp.getTransforms
  rcases load with e | met
  · exact Or.inr ⟨e, rfl⟩
  · dsimp only
    rcases fitGfa met with e | t
    · exact Or.inr ⟨e, rfl⟩
    · exact Or.inl ⟨t, rfl⟩

theorem gfa_none (load : Except PyErr (List GRow)) (petal : ℤ) (g : List (ℝ × ℝ)) :
    (∃ t, Gfa2fp.gfa2fp none load petal g = ((Gfa2fp.gfa2fp (some t) (.error .fileNotFound) petal g).1, some t) ∧
      Gfa2fp.fp2gfa none load petal g = ((Gfa2fp.fp2gfa (some t) (.error .fileNotFound) petal g).1, some t)) ∨
    ∃ e, Gfa2fp.gfa2fp none load petal g = (.error e, none) ∧ Gfa2fp.fp2gfa none load petal g = (.error e, none) := by
  unfold Gfa2fp.gfa2fp Gfa2fp.fp2gfa
  rcases transforms_cases load with ⟨t, h⟩ | ⟨e, h⟩
  · exact Or.inl ⟨t, by rw [h]; exact ⟨rfl, rfl⟩⟩
  · exact Or.inr ⟨e, by rw [h]; exact ⟨rfl, rfl⟩⟩

/-- **C120** Likewise all conversions of pixels of guide cameras in a process are made with one and the same set of transforms. -/
theorem C120_one_gfa (pkg : PyStr) (s : Sess) (os : List Op) : ∃ t : Transforms, ∀ x ∈ os.zip (run pkg s os), FollowsGfa t x.1 x.2 := by
  induction os generalizing s with
  | nil => exact ⟨[], by simp [run]⟩
  | cons o os ih =>
    rcases e : s.gfa with _ | t
    swap
    · exact ⟨t, fun x hx => exactlyGfa_follows _ _ _ (runGfa_keeps pkg s t e (o :: os) x hx)⟩
    have hstep : (∃ t, (step pkg s o).2.gfa = some t ∧ ExactlyGfa t o (step pkg s o).1) ∨ ∀ t, FollowsGfa t o (step pkg s o).1 := by
      cases o with
      | toMm petal g =>
        simp only [step, e]
        rcases gfa_none (loadMetrology pkg s) petal g with ⟨t, h1, _⟩ | ⟨er, h1, _⟩
        · rw [h1]
          exact Or.inl ⟨t, rfl, rfl⟩
        · rw [h1]
          exact Or.inr fun _ => trivial
      | toPix petal g =>
        simp only [step, e]
        rcases gfa_none (loadMetrology pkg s) petal g with ⟨t, _, h1⟩ | ⟨er, _, h1⟩
        · rw [h1]
          exact Or.inl ⟨t, rfl, rfl⟩
        · rw [h1]
          exact Or.inr fun _ => trivial
      | _ => exact Or.inr fun _ => trivial
    rcases hstep with ⟨t, h1, h2⟩ | h
    · refine ⟨t, ?_⟩
      intro x hx
      rw [run, List.zip_cons_cons] at hx
      rcases List.mem_cons.1 hx with rfl | hx
      · exact exactlyGfa_follows _ _ _ h2
      · exact exactlyGfa_follows _ _ _ (runGfa_keeps pkg _ t h1 os x hx)
    · obtain ⟨t, ht⟩ := ih (step pkg s o).2
      refine ⟨t, ?_⟩
      intro x hx
      rw [run, List.zip_cons_cons] at hx
      rcases List.mem_cons.1 hx with rfl | hx
      · exact h t
      · exact ht x hx

/-- **C120** These are fitted to the metrology of the data directory when they are first needed; a failed attempt changes nothing. -/
theorem C120_first_gfa (pkg : PyStr) (s : Sess) (h : s.gfa = none) (petal : ℤ) (g : List (ℝ × ℝ)) :
    (metroFile pkg s = none → step pkg s (.toMm petal g) = (.pixels (.error .fileNotFound), s) ∧ step pkg s (.toPix petal g) = (.pixels (.error .fileNotFound), s)) ∧
    (∀ met, metroFile pkg s = some met →
      (∀ e, fitGfa met = .error e → step pkg s (.toMm petal g) = (.pixels (.error e), s) ∧ step pkg s (.toPix petal g) = (.pixels (.error e), s)) ∧
      ∀ t, fitGfa met = .ok t → ∀ os,
        (∀ x ∈ (Op.toMm petal g :: os).zip (run pkg s (.toMm petal g :: os)), ExactlyGfa t x.1 x.2) ∧
        ∀ x ∈ (Op.toPix petal g :: os).zip (run pkg s (.toPix petal g :: os)), ExactlyGfa t x.1 x.2) := by
  have hl : loadMetrology pkg s = match metroFile pkg s with
      | some t => .ok t
      | none => .error .fileNotFound := by
    unfold loadMetrology metroFile
    rw [dataDir_eq]
    generalize s.files.metro _ = c
    cases c <;> rfl
  obtain ⟨env, files, al, gfa⟩ := s
  dsimp only at h
  subst h
  refine ⟨?_, ?_⟩
  · intro hm
    rw [hm] at hl
    dsimp only at hl
    unfold step
    dsimp only
    rw [hl]
    exact ⟨rfl, rfl⟩
  · intro met hm
    rw [hm] at hl
    dsimp only at hl
    refine ⟨?_, ?_⟩
    · intro e he
      have hg : Gfa2fp.getTransforms none (.ok met) = (.error e, none) := by
        unfold Gfa2fp.getTransforms
        dsimp only
        rw [he]
      unfold step
      dsimp only
      rw [hl]
      unfold Gfa2fp.gfa2fp Gfa2fp.fp2gfa
      rw [hg]
      exact ⟨rfl, rfl⟩
    · intro t ht os
      have hg : Gfa2fp.getTransforms none (.ok met) = (.ok t, some t) := by
        unfold Gfa2fp.getTransforms
        dsimp only
        rw [ht]
      have h1 : Gfa2fp.gfa2fp none (.ok met) petal g = ((Gfa2fp.gfa2fp (some t) (.error .fileNotFound) petal g).1, some t) := by
        unfold Gfa2fp.gfa2fp
        rw [hg]
        rfl
      have h2 : Gfa2fp.fp2gfa none (.ok met) petal g = ((Gfa2fp.fp2gfa (some t) (.error .fileNotFound) petal g).1, some t) := by
        unfold Gfa2fp.fp2gfa
        rw [hg]
        rfl
      constructor
      · intro x hx
        rw [run, List.zip_cons_cons] at hx
        rcases List.mem_cons.1 hx with rfl | hx
        · simp only [step, hl, h1, ExactlyGfa]
        · refine runGfa_keeps pkg _ t ?_ os x hx
          simp only [step, hl, h1]
      · intro x hx
        rw [run, List.zip_cons_cons] at hx
        rcases List.mem_cons.1 hx with rfl | hx
        · simp only [step, hl, h2, ExactlyGfa]
        · refine runGfa_keeps pkg _ t ?_ os x hx
          simp only [step, hl, h2]

/-- **C120** A file written before the first use takes effect exactly if it is the one in the data directory; one written elsewhere changes no result of a conversion or of the metrology. -/
theorem C120_written (pkg : PyStr) (s : Sess) (h : s.align = none) (path : PyStr) (d : Ptl2fp.Dict) (met : List GRow) (petal : ℕ) (p : V3) :
    (path = PlotPosmoves.join (s.env.getD pkg) "petal-alignments.yaml".toList → run pkg s [.putAlign path (some (some d)), .toFp petal p] = [.done, .point (ptl2fp d petal p)]) ∧
    (path ≠ PlotPosmoves.join (s.env.getD pkg) "petal-alignments.yaml".toList → run pkg s [.putAlign path (some (some d)), .toFp petal p] = .done :: run pkg s [.toFp petal p]) ∧
    (path = PlotPosmoves.join (s.env.getD pkg) "fp-metrology.csv".toList → run pkg s [.putMetro path (some met), .metrology] = [.done, .table (.ok met)]) ∧
    (path ≠ PlotPosmoves.join (s.env.getD pkg) "fp-metrology.csv".toList → run pkg s [.putMetro path (some met), .metrology] = .done :: run pkg s [.metrology]) := by
  generalize hA : "petal-alignments.yaml".toList = A
  generalize hB : "fp-metrology.csv".toList = B
  refine ⟨fun e => ?_, fun e => ?_, fun e => ?_, fun e => ?_⟩
  · simp only [run, step, getAlign, h, dataDir_eq, hA, ← e, if_true, withAlign]
  · simp only [run, step, getAlign, h, dataDir_eq, hA, if_neg (Ne.symm e)]
  · simp only [run, step, loadMetrology, dataDir_eq, hB, ← e, if_true]
  · simp only [run, step, loadMetrology, dataDir_eq, hB, if_neg (Ne.symm e)]

/-! ## Example -/

/-- Two directories with different alignments of petal 3. -/
example : ∃ (s : Sess) (a b : PyStr) (da db : Ptl2fp.Dict) (p : V3), s.align = none ∧ alignFile [] { s with env := some a } = some (some da) ∧
    alignFile [] { s with env := some b } = some (some db) ∧ ptl2fp da 3 p ≠ ptl2fp db 3 p := by
  let da : Ptl2fp.Dict := fun _ => none
  let db : Ptl2fp.Dict := fun _ => some ⟨0, 0, 0, 1, 0, 0⟩
  refine ⟨⟨none, ⟨fun path => if path = "a/petal-alignments.yaml".toList then some (some da) else some (some db), fun _ => none⟩, none, none⟩, "a".toList, "b".toList, da, db, 0, rfl, ?_, ?_, ?_⟩
  · rfl
  · rfl
  · intro h
    cases h

end Verif.Props.DataDir
