import Verif.Model.GuideFit
import Verif.Props.FieldModel
import Verif.Props.FieldPointing
import Verif.Props.PredictRot

/-!
# C111: the script which fits the field to guide stars
-/

namespace Verif.Props.GuideFit
open Verif.Py Verif.Model.FieldFit Verif.Model.GuideFit
open Verif.Model.PredictRot (Header chooseHeader number)
open Verif.Props.FieldModel (posAfter sepArcsec)
open Verif.Props.RayRun (bind_iff)

/-- The header used: the first one if it has TARGTRA, else the second if it has it. -/
def HeaderOf (l : List Header) (h : Header) : Prop :=
  (h.nums.get? "TARGTRA".toList).isSome = true ∧
  (l[0]? = some h ∨ ∃ g, l[0]? = some g ∧ g.nums.get? "TARGTRA".toList = none ∧ l[1]? = some h)

/-- The time used: the mean of the times in the catalogue, else MJD-OBS, else TCSMJD. -/
def TimeOf (h : Header) (cat : GuideCat) (m : ℝ) : Prop :=
  (∃ l, cat.mjdObs = some l ∧ m = l.sum / l.length) ∨
  (cat.mjdObs = none ∧ (h.nums.get? "MJD-OBS".toList = some m ∨
    (h.nums.get? "MJD-OBS".toList = none ∧ h.nums.get? "TCSMJD".toList = some m)))

/-- Position of a star in the catalogue at a time in years, with its proper motion if known. -/
noncomputable def posAt (cat : GuideCat) (year : ℝ) (r : GuideRow) : ℝ × ℝ :=
  if cat.hasPm then posAfter r.cat (year - r.cat.refEpoch) else (r.cat.raGaia, r.cat.decGaia)

open Classical in
/-- The stars used: those within 2 arcsec of their position in the catalogue. -/
noncomputable def starsAt (cat : GuideCat) (year : ℝ) : List Star :=
  (cat.rows.filter fun r => sepArcsec r.cat (posAt cat year r).1 (posAt cat year r).2 < 2).map fun r => ⟨r.pix, r.petal, posAt cat year r⟩

theorem number_iff (h : Header) (k : PyStr) (v : ℝ) : number h k = .ok v ↔ h.nums.get? k = some v := by
  unfold number
  rcases h.nums.get? k with _ | w <;> simp

theorem chooseHeader_iff (l : List Header) (h : Header) : chooseHeader l = .ok h ↔ HeaderOf l h := by
  unfold chooseHeader HeaderOf
  generalize "TARGTRA".toList = k
  rcases l with _ | ⟨a, _ | ⟨b, t⟩⟩
  · simp
  · rcases e : a.nums.get? k with _ | v
    · simp [e]
      rintro hs rfl
      rw [e] at hs
      cases hs
    · simp [e]
      rintro rfl
      rw [e]
      rfl
  · rcases e : a.nums.get? k with _ | v
    · rcases e' : b.nums.get? k with _ | w
      · simp [e, e']
        intro hs
        refine ⟨?_, ?_⟩ <;> rintro rfl
        · rw [e] at hs; cases hs
        · rw [e'] at hs; cases hs
      · simp [e, e']
        constructor
        · rintro rfl; exact ⟨by rw [e']; rfl, Or.inr rfl⟩
        · rintro ⟨hs, rfl | h⟩
          · rw [e] at hs; cases hs
          · exact h
    · simp [e]
      rintro rfl
      rw [e]
      rfl

theorem catMjd_iff (h : Header) (cat : GuideCat) (m : ℝ) : catMjd (headerMjd h) cat = some m ↔ TimeOf h cat m := by
  unfold catMjd headerMjd TimeOf
  rcases cat.mjdObs with _ | l
  · rcases h.nums.get? "MJD-OBS".toList with _ | v <;> simp
  · simp [mean, eq_comm]

theorem selectStars_eq (rows : List GuideRow) : selectStars rows =
    let sel := rows.filter fun r => @decide (matchDist r.cat < 2) (Classical.dec _)
    if sel = [] then .error .runtimeError else .ok (sel.map starOf) := by
  unfold selectStars
  dsimp only
  simp only [List.length_eq_zero_iff]

/-- The catalogue read. -/
theorem readStars_eq (jyear : ℝ → ℝ) (cat : GuideCat) (m : ℝ) : readStars jyear (some m) cat =
    if cat.hasX = true ∧ cat.hasGaia = true ∧ starsAt cat (jyear m) ≠ [] then .ok (starsAt cat (jyear m)) else .error .runtimeError := by
  unfold readStars
  by_cases hx : cat.hasX = true
  swap
  · simp [hx]
  by_cases hg : cat.hasGaia = true
  swap
  · simp [hg]
  rw [hx, hg]
  simp only [Bool.not_true, Bool.or_self, Bool.false_eq_true, if_false, true_and]
  have hs : ∀ y : ℝ, (if cat.hasPm = true then selectStars (cat.rows.map (rowWithPm y)) else selectStars cat.rows) =
      if starsAt cat y ≠ [] then .ok (starsAt cat y) else .error .runtimeError := by
    intro y
    have hst : ((if cat.hasPm = true then cat.rows.map (rowWithPm y) else cat.rows).filter
        fun r => @decide (matchDist r.cat < 2) (Classical.dec _)).map starOf = starsAt cat y := by
      unfold starsAt posAt
      by_cases hp : cat.hasPm = true
      · simp only [if_pos hp]
        rw [List.filter_map, List.map_map]
        refine congrArg₂ _ ?_ ?_
        · funext r
          simp only [Function.comp_apply, rowWithPm, starOf, Verif.Props.FieldModel.withPm_eq]
        · apply List.filter_congr
          intro r _
          simp only [Function.comp_apply, rowWithPm, Verif.Props.FieldModel.matchDist_eq, Verif.Props.FieldModel.withPm_eq]
          rfl
      · simp only [if_neg hp]
        refine congrArg₂ _ ?_ ?_
        · funext r; rfl
        · apply List.filter_congr
          intro r _
          simp only [Verif.Props.FieldModel.matchDist_eq]
    have hsel : selectStars (if cat.hasPm = true then cat.rows.map (rowWithPm y) else cat.rows) =
        if starsAt cat y ≠ [] then .ok (starsAt cat y) else .error .runtimeError := by
      rw [← hst, selectStars_eq]
      generalize (if cat.hasPm = true then cat.rows.map (rowWithPm y) else cat.rows) = rows
      dsimp only
      by_cases hn : rows.filter
        (fun r => @decide (matchDist r.cat < 2) (Classical.dec _)) = []
      · rw [if_pos hn, if_neg (by rw [hn]; simp)]
      · rw [if_neg hn, if_pos fun hz => hn (List.map_eq_nil_iff.1 hz)]
    rw [← hsel]
    split_ifs <;> rfl
  exact hs (jyear m)

/-- The field model before the fit. -/
noncomputable def before (ra dec m lst hexrot : ℝ) : Field :=
  ⟨ra, dec, some m, some lst, some hexrot, some 1, some 1, some 0, some 0, some 0, 0, 0⟩

/-- **C111** A file is written exactly if the header has pointing, exposure, hexapod angle and corrector angles, a time is known, the
catalogue has its columns and at least one star within 2 arcsec of its position in the catalogue, and the fit to these stars succeeds. The fit
starts from the pointing in the header, with the sidereal time of the time used; the result is what is written. -/
theorem C111_written (env : ℝ → ℝ → Env) (jyear : ℝ → ℝ) (parse : PyStr → Option ℝ) (l : List Header) (cat : GuideCat) (w : Written) :
    fit env jyear parse l cat = .ok w ↔ ∃ h m ra dec hexrot, HeaderOf l h ∧ h.nums.get? "TARGTRA".toList = some ra ∧
      h.nums.get? "TARGTDEC".toList = some dec ∧ h.nums.get? "EXPID".toList = some w.expid ∧
      Model.Hexrot.readHexrotDeg parse h.vals = .ok hexrot ∧ h.nums.get? "ADC1PHI".toList = some w.adc1 ∧
      h.nums.get? "ADC2PHI".toList = some w.adc2 ∧ TimeOf h cat m ∧ cat.hasX = true ∧ cat.hasGaia = true ∧ starsAt cat (jyear m) ≠ [] ∧
      fitTancorr (env w.adc1 w.adc2) (before ra dec m ((env w.adc1 w.adc2).mjd2lst m) hexrot) (starsAt cat (jyear m)) cat.mjdObs none none none =
        .ok w.field := by
  unfold fit
  simp only [bind_iff, number_iff, chooseHeader_iff]
  constructor
  · rintro ⟨h, h1, ra, h2, dec, h3, expid, h4, hexrot, h5, adc1, h6, adc2, h7, stars, h8, t, h9, f, h10, h11⟩
    obtain rfl := Except.ok.inj h11
    rcases hm : catMjd (headerMjd h) cat with _ | m
    · rw [hm] at h9; cases h9
    rw [hm] at h8 h9
    obtain rfl := Except.ok.inj h9
    rw [readStars_eq] at h8
    split_ifs at h8 with hc
    obtain rfl := Except.ok.inj h8
    exact ⟨h, m, ra, dec, hexrot, h1, h2, h3, h4, h5, h6, h7, (catMjd_iff h cat m).1 hm, hc.1, hc.2.1, hc.2.2, h10⟩
  · rintro ⟨h, m, ra, dec, hexrot, h1, h2, h3, h4, h5, h6, h7, hm, c1, c2, c3, h10⟩
    have hm := (catMjd_iff h cat m).2 hm
    refine ⟨h, h1, ra, h2, dec, h3, w.expid, h4, hexrot, h5, w.adc1, h6, w.adc2, h7, starsAt cat (jyear m), ?_,
      (m, (env w.adc1 w.adc2).mjd2lst m), ?_, w.field, h10, rfl⟩
    · rw [hm, readStars_eq, if_pos ⟨c1, c2, c3⟩]
    · rw [hm]; rfl

/-- **C111** The time written is the one used, the sidereal time written is that of this time (whatever the header says about sidereal time), and
the hexapod angle written is that of the header. -/
theorem C111_times (env : ℝ → ℝ → Env) (jyear : ℝ → ℝ) (parse : PyStr → Option ℝ) (l : List Header) (cat : GuideCat) (w : Written)
    (hw : fit env jyear parse l cat = .ok w) : ∃ h m hexrot, HeaderOf l h ∧ TimeOf h cat m ∧ Model.Hexrot.readHexrotDeg parse h.vals = .ok hexrot ∧
      w.field.mjd = some m ∧ w.field.lst = some ((env w.adc1 w.adc2).mjd2lst m) ∧ w.field.hexrot = some hexrot := by
  obtain ⟨h, m, ra, dec, hexrot, h1, -, -, -, h5, -, -, hm, -, -, -, hf⟩ := (C111_written env jyear parse l cat w).1 hw
  obtain ⟨e1, e2, e3⟩ := (Verif.Props.FieldModel.C69_inputs _ _ _ _ _ _ _).2 _ hf
  refine ⟨h, m, hexrot, h1, hm, h5, ?_, ?_, ?_⟩
  · rw [e1]; rfl
  · rw [e3]; rfl
  · rw [e2]; rfl

/-- **C111** Stars on petals without camera metrology are among those asked for but not used: the number of stars written is that of the
stars with metrology. -/
theorem C111_nstars (env : ℝ → ℝ → Env) (jyear : ℝ → ℝ) (parse : PyStr → Option ℝ) (l : List Header) (cat : GuideCat) (w : Written)
    (hw : fit env jyear parse l cat = .ok w) (m : ℝ) (hm : w.field.mjd = some m) :
    w.field.nstars = ((starsAt cat (jyear m)).filter fun s => @decide (((env w.adc1 w.adc2).gfa2fp s.petal s.pix).1 ≠ 0) (Classical.dec _)).length ∧
      3 ≤ w.field.nstars := by
  obtain ⟨h, m', ra, dec, hexrot, -, -, -, -, -, -, -, hm', -, -, -, hf⟩ := (C111_written env jyear parse l cat w).1 hw
  obtain ⟨e1, -, -⟩ := (Verif.Props.FieldModel.C69_inputs _ _ _ _ _ _ _).2 _ hf
  have hmm : m = m' := by
    rw [hm] at e1
    exact Option.some.inj e1
  subst hmm
  obtain ⟨a, b, t, tel, c, -, -, -, -, -, hs, -, -, -, -, -, hn, -⟩ := Verif.Props.FieldPointing.C69_pointing _ _ _ _ _ _ _ _ hf
  obtain ⟨h2, -, -⟩ := hs 2
  have hlen : (c 2).nstars = (Verif.Props.FieldModel.measured (env w.adc1 w.adc2) (starsAt cat (jyear m))).length := by
    have := nstars_of _ _ h2
    rw [this]
    unfold Verif.Props.FieldPointing.starPairs
    rw [List.length_map]
  rw [hn, hlen]
  refine ⟨?_, ?_⟩
  · unfold Verif.Props.FieldModel.measured
    congr 1
    apply List.filter_congr
    intro x _
    congr
  by_contra hlt
  have := (Verif.Props.FieldFit.C67_fails_iff (Verif.Props.FieldPointing.starPairs (env w.adc1 w.adc2) (starsAt cat (jyear m)) a b t (tel (Fin.castSucc 2)))).2
    (by unfold Verif.Props.FieldPointing.starPairs; rw [List.length_map]; omega)
  rw [this] at h2
  cases h2
where
  nstars_of (p : List Verif.Model.SimpleCorr.Pair) (r : TanFit) (h : tanFit p = .ok r) : r.nstars = p.length := by
    unfold tanFit at h
    simp only [bind_iff] at h
    obtain ⟨Ai, -, h⟩ := h
    obtain rfl := Except.ok.inj h
    simp [movedPairs]

/-- Headers which differ only in the times. -/
def SameButTime (h h' : Header) : Prop :=
  h.vals = h'.vals ∧ ∀ k, k ≠ "MJD-OBS".toList → k ≠ "TCSMJD".toList → h.nums.get? k = h'.nums.get? k

/-- **C111** (finding) The time in the header is read but not used if the catalogue has times: headers of another night give the same file. -/
theorem C111_header_time (env : ℝ → ℝ → Env) (jyear : ℝ → ℝ) (parse : PyStr → Option ℝ) (l l' : List Header) (cat : GuideCat)
    (hl : List.Forall₂ SameButTime l l') (hc : cat.mjdObs ≠ none) (w : Written) :
    fit env jyear parse l cat = .ok w ↔ fit env jyear parse l' cat = .ok w := by
  have half : ∀ l l' : List Header, List.Forall₂ SameButTime l l' → fit env jyear parse l cat = .ok w → fit env jyear parse l' cat = .ok w := by
    intro l l' hl hw
    obtain ⟨h, m, ra, dec, hexrot, ⟨hs, h1⟩, h2, h3, h4, h5, h6, h7, hm, c1, c2, c3, hf⟩ := (C111_written env jyear parse l cat w).1 hw
    have hat := fun i g => at_of hl i g
    have hr : ∀ (g g' : Header), SameButTime g g' → g'.nums.get? "TARGTRA".toList = g.nums.get? "TARGTRA".toList :=
      fun g g' hg => (hg.2 _ (by decide) (by decide)).symm
    have hh : ∃ h', SameButTime h h' ∧ HeaderOf l' h' := by
      rcases h1 with h1 | ⟨g, g1, g2, g3⟩
      · obtain ⟨h', e1, e2⟩ := hat 0 h h1
        exact ⟨h', e2, by rw [hr h h' e2]; exact hs, Or.inl e1⟩
      · obtain ⟨g', e1, e2⟩ := hat 0 g g1
        obtain ⟨h', e3, e4⟩ := hat 1 h g3
        exact ⟨h', e4, by rw [hr h h' e4]; exact hs, Or.inr ⟨g', e1, by rw [hr g g' e2]; exact g2, e3⟩⟩
    obtain ⟨h', hsame, hof⟩ := hh
    refine (C111_written env jyear parse l' cat w).2 ⟨h', m, ra, dec, hexrot, hof, ?_, ?_, ?_, ?_, ?_, ?_, ?_, c1, c2, c3, hf⟩
    · rw [← hsame.2 _ (by decide) (by decide)]; exact h2
    · rw [← hsame.2 _ (by decide) (by decide)]; exact h3
    · rw [← hsame.2 _ (by decide) (by decide)]; exact h4
    · rw [← hsame.1]; exact h5
    · rw [← hsame.2 _ (by decide) (by decide)]; exact h6
    · rw [← hsame.2 _ (by decide) (by decide)]; exact h7
    · rcases hm with hm | ⟨hm, -⟩
      · exact Or.inl hm
      · exact absurd hm hc
  constructor
  · exact half l l' hl
  · exact half l' l (symm_of hl)
where
  at_of {l l' : List Header} (hl : List.Forall₂ SameButTime l l') (i : ℕ) (g : Header) (hg : l[i]? = some g) :
      ∃ g', l'[i]? = some g' ∧ SameButTime g g' := by
    induction hl generalizing i with
    | nil => simp at hg
    | cons h0 _ ih =>
      rcases i with _ | i
      · simp only [List.getElem?_cons_zero, Option.some.injEq] at hg
        subst hg
        exact ⟨_, rfl, h0⟩
      · simp only [List.getElem?_cons_succ] at hg ⊢
        exact ih i hg
  symm_of {l l' : List Header} (hl : List.Forall₂ SameButTime l l') : List.Forall₂ SameButTime l' l := by
    induction hl with
    | nil => exact .nil
    | cons h0 _ ih => exact .cons ⟨h0.1.symm, fun k k1 k2 => (h0.2 k k1 k2).symm⟩ ih

/-- **C111** Without pointing in the first two headers of the file the script ends with status 12; with one header only, an OSError is raised. -/
theorem C111_no_pointing (env : ℝ → ℝ → Env) (jyear : ℝ → ℝ) (parse : PyStr → Option ℝ) (cat : GuideCat) (a b : Header) (t : List Header)
    (ha : a.nums.get? "TARGTRA".toList = none) :
    (b.nums.get? "TARGTRA".toList = none → fit env jyear parse (a :: b :: t) cat = .error (.sysExit 12)) ∧
    fit env jyear parse [a] cat = .error .fileNotFound := by
  constructor
  · intro hb
    have : chooseHeader (a :: b :: t) = .error (.sysExit 12) := by
      unfold chooseHeader
      dsimp only
      rw [ha, hb]
      rfl
    unfold fit
    rw [this]
    rfl
  · have : chooseHeader [a] = .error .fileNotFound := by
      unfold chooseHeader
      dsimp only
      rw [ha]
      rfl
    unfold fit
    rw [this]
    rfl

/-- **C111** Without any time the script fails: with a RuntimeError if the catalogue has proper motions, else with a TypeError, if a star matches. -/
theorem C111_no_time (env : ℝ → ℝ → Env) (jyear : ℝ → ℝ) (parse : PyStr → Option ℝ) (l : List Header) (cat : GuideCat) (h : Header)
    (ra dec expid hexrot adc1 adc2 : ℝ) (h1 : HeaderOf l h) (h2 : h.nums.get? "TARGTRA".toList = some ra)
    (h3 : h.nums.get? "TARGTDEC".toList = some dec) (h4 : h.nums.get? "EXPID".toList = some expid)
    (h5 : Model.Hexrot.readHexrotDeg parse h.vals = .ok hexrot) (h6 : h.nums.get? "ADC1PHI".toList = some adc1)
    (h7 : h.nums.get? "ADC2PHI".toList = some adc2) (hx : cat.hasX = true) (hg : cat.hasGaia = true) (hn : ∀ m, ¬ TimeOf h cat m) :
    (cat.hasPm = true → fit env jyear parse l cat = .error .runtimeError) ∧
    (cat.hasPm = false → starsAt cat 0 ≠ [] → fit env jyear parse l cat = .error .typeError) := by
  have hm : catMjd (headerMjd h) cat = none := by
    rcases e : catMjd (headerMjd h) cat with _ | m
    · rfl
    · exact absurd ((catMjd_iff h cat m).1 e) (hn m)
  unfold fit
  dsimp only
  rw [(chooseHeader_iff l h).2 h1]
  simp only [bind, Except.bind]
  rw [(number_iff h _ _).2 h2, (number_iff h _ _).2 h3, (number_iff h _ _).2 h4, h5, (number_iff h _ _).2 h6, (number_iff h _ _).2 h7]
  dsimp only
  rw [hm]
  constructor
  · intro hp
    have : readStars jyear none cat = .error .runtimeError := by
      unfold readStars
      rw [hx, hg, hp]
      rfl
    rw [this]
  · intro hp hs
    have : readStars jyear none cat = .ok (starsAt cat 0) := by
      have e := readStars_eq (fun _ => 0) cat 0
      rw [if_pos ⟨hx, hg, hs⟩] at e
      rw [← e]
      unfold readStars
      rw [hp]
      rfl
    rw [this]
    rfl

/-- **C111** The file is written if its directory exists, or is the current one, or is asked to be made; else the result of the fit is lost. -/
theorem C111_directory (env : ℝ → ℝ → Env) (jyear : ℝ → ℝ) (parse : PyStr → Option ℝ) (l : List Header) (cat : GuideCat)
    (there : PyStr → Bool) (make : Bool) (d : PyStr) (w : Written) (hw : fit env jyear parse l cat = .ok w) :
    (make = true ∨ d = [] ∨ there d = true → script env jyear parse l cat there make d = .ok w) ∧
    (make = false → d ≠ [] → there d = false → script env jyear parse l cat there make d = .error .fileNotFound) := by
  unfold script
  rw [hw]
  simp only [bind, Except.bind]
  constructor
  · intro h
    rw [if_pos (by simpa [or_assoc] using h)]
    rfl
  · intro h1 h2 h3
    rw [if_neg (by simp [h1, h2, h3])]

/-- Headers and a catalogue for which a time is known and a star is used. -/
example : ∃ (l : List Header) (h : Header) (cat : GuideCat), HeaderOf l h ∧ l.length = 2 ∧ TimeOf h cat 6 ∧ cat.mjdObs ≠ none ∧
    starsAt cat 2020 ≠ [] := by
  let h : Header := ⟨[("TARGTRA".toList, 10), ("MJD-OBS".toList, 59000)], none, true, []⟩
  let row : GuideRow := ⟨⟨10, 0, 10, 0, none, none, 2015.5⟩, (1, 1), 3⟩
  refine ⟨[⟨[], none, false, []⟩, h], h, ⟨some [5, 7], true, true, false, [row]⟩, ⟨rfl, Or.inr ⟨_, rfl, rfl, rfl⟩⟩, rfl,
    Or.inl ⟨_, rfl, by norm_num⟩, by simp, ?_⟩
  have : sepArcsec row.cat 10 0 < 2 := by simp [sepArcsec, row]
  simp [starsAt, posAt, row, this]

end Verif.Props.GuideFit
