import Verif.Model.PredictRot
import Verif.Model.Trig
import Verif.Lemmas.LinAlg
import Verif.Props.FieldRotRate
import Verif.Props.FieldModel
import Verif.Props.RayRun

/-!
# C105: prediction of the rotation of the field
-/

namespace Verif.Props.PredictRot
open Verif.Py Verif.Model.PredictRot
open Verif.Model.FieldFit (Env computeFieldrot)
open Verif.Model.FieldRotRate (rate)
open Verif.Props.RayRun (bind_iff)

/-! ## Options -/

/-- Sidereal time asked for by the options: that given, else right ascension plus hour angle, else that of the date. -/
def SiderealTime (mjd2lst : ℝ → ℝ) (a : Args) (t : ℝ) : Prop :=
  a.lst = some t ∨ (a.lst = none ∧ ∃ r h, a.ra = some r ∧ a.ha = some h ∧ t = r + h) ∨
    (a.lst = none ∧ a.ha = none ∧ ∃ m, a.mjd = some m ∧ t = mjd2lst m)

theorem argsLst_ok (mjd2lst : ℝ → ℝ) (a : Args) (t : ℝ) (hr : a.ra ≠ none) (hm : a.mjd ≠ none) :
    argsLst mjd2lst a = .ok t ↔ SiderealTime mjd2lst a t := by
  obtain ⟨ra, dec, lst, ha, mjd, hx, fits⟩ := a
  rcases ra with _ | ra
  · exact absurd rfl hr
  rcases mjd with _ | mjd
  · exact absurd rfl hm
  rcases lst with _ | lst
  · rcases ha with _ | ha
    · constructor
      · intro h
        exact Or.inr (Or.inr ⟨rfl, rfl, mjd, rfl, (Except.ok.inj h).symm⟩)
      · rintro (h | ⟨-, r, h, -, h2, -⟩ | ⟨-, -, m, h, rfl⟩)
        · cases h
        · cases h2
        · cases h; rfl
    · constructor
      · intro h
        exact Or.inr (Or.inl ⟨rfl, ra, ha, rfl, rfl, (Except.ok.inj h).symm⟩)
      · rintro (h | ⟨-, r, h, h1, h2, rfl⟩ | ⟨-, h, -⟩)
        · cases h
        · cases h1; cases h2; rfl
        · cases h
  · constructor
    · intro h
      exact Or.inl (congrArg some (Except.ok.inj h))
    · rintro (h | ⟨h, -⟩ | ⟨h, -⟩)
      · exact congrArg Except.ok (Option.some.inj h)
      · cases h
      · cases h

theorem hexrot_div (hx : ℝ) : (if hx ≠ 0 then hx / 3600 else 0) = hx / 3600 := by
  split_ifs with h
  · rfl
  · push Not at h; rw [h]; simp

/-- **C105** With options the prediction is made exactly if right ascension, declination and date are all given; for the sidereal time
asked for and the hexapod angle in degrees. -/
theorem C105_options (mjd2lst : ℝ → ℝ) (parse : PyStr → Option ℝ) (a : Args) (hf : a.fits = none) (i : Inputs) :
    inputs parse mjd2lst a = .ok i ↔ a.ra = some i.ra ∧ a.dec = some i.dec ∧ a.mjd = some i.mjd ∧
      SiderealTime mjd2lst a i.lst ∧ i.hexrot = a.hexrotArcsec / 3600 := by
  have hi : inputs parse mjd2lst a = fromArgs mjd2lst a := by
    unfold inputs; rw [hf]
  rw [hi]
  unfold fromArgs
  rw [bind_iff]
  constructor
  · rintro ⟨t, h1, h2⟩
    dsimp only at h2
    rw [hexrot_div] at h2
    rcases hr : a.ra with _ | ra
    · rw [hr] at h2; cases h2
    rcases hd : a.dec with _ | dec
    · rw [hr, hd] at h2; cases h2
    rcases hm : a.mjd with _ | mjd
    · rw [hr, hd, hm] at h2; cases h2
    rw [hr, hd, hm] at h2
    obtain rfl := Except.ok.inj h2
    exact ⟨rfl, rfl, rfl, (argsLst_ok mjd2lst a t (by rw [hr]; exact fun h => nomatch h) (by rw [hm]; exact fun h => nomatch h)).1 h1, rfl⟩
  · rintro ⟨hr, hd, hm, ht, hx⟩
    refine ⟨i.lst, (argsLst_ok mjd2lst a _ (by rw [hr]; exact fun h => nomatch h) (by rw [hm]; exact fun h => nomatch h)).2 ht, ?_⟩
    dsimp only
    rw [hexrot_div, hr, hd, hm, ← hx]
    rfl

/-- **C105** (finding) The message on missing arguments (exit code 12) is only given if the sidereal time could be formed; an hour angle
without right ascension, or neither sidereal time nor hour angle nor date, is a TypeError instead. -/
theorem C105_missing (mjd2lst : ℝ → ℝ) (parse : PyStr → Option ℝ) (a : Args) (hf : a.fits = none) :
    (inputs parse mjd2lst a = .error .typeError ↔
      a.lst = none ∧ ((a.ha ≠ none ∧ a.ra = none) ∨ (a.ha = none ∧ a.mjd = none))) ∧
    (inputs parse mjd2lst a = .error (.sysExit 12) ↔
      (∃ t, SiderealTime mjd2lst a t) ∧ (a.ra = none ∨ a.dec = none ∨ a.mjd = none)) := by
  obtain ⟨ra, dec, lst, ha, mjd, hx, fits⟩ := a
  simp only at hf
  subst hf
  simp only [inputs, fromArgs, argsLst, SiderealTime]
  rcases lst with _ | lst <;> rcases ha with _ | ha <;> rcases ra with _ | ra <;> rcases mjd with _ | mjd <;> rcases dec with _ | dec <;>
    simp [bind, Except.bind, pure, Except.pure]

/-! ## Header -/

/-- **C105** With a file the values are those of the first HDU if it has TARGTRA, else of the second; the options are not used. -/
theorem C105_header (mjd2lst : ℝ → ℝ) (parse : PyStr → Option ℝ) (a : Args) (l : List Header) (hf : a.fits = some l) (i : Inputs) :
    inputs parse mjd2lst a = .ok i ↔ ∃ h, (l[0]? = some h ∨ ((∃ g, l[0]? = some g ∧ g.nums.get? "TARGTRA".toList = none) ∧ l[1]? = some h)) ∧
      h.nums.get? "TARGTRA".toList = some i.ra ∧ h.nums.get? "TARGTDEC".toList = some i.dec ∧ h.nums.get? "MJD-OBS".toList = some i.mjd ∧
      (match h.tcsst with
        | none => i.lst = mjd2lst i.mjd
        | some s => ∃ x y z, ((split [':'] s)[0]?.bind parse) = some x ∧ ((split [':'] s)[1]?.bind parse) = some y ∧
            ((split [':'] s)[2]?.bind parse) = some z ∧ i.lst = 15 * (x + y / 60 + z / 3600)) ∧
      (if h.hexpos then Model.Hexrot.readHexrotDeg parse h.vals = .ok i.hexrot else i.hexrot = 0) := by
  have hnum : ∀ (h : Header) (k : PyStr) (v : ℝ), number h k = .ok v ↔ h.nums.get? k = some v := by
    intro h k v
    unfold number
    rcases h.nums.get? k with _ | w <;> simp
  have hfl : ∀ (vals : List PyStr) (j : ℕ) (v : ℝ), floatAt parse vals j = .ok v ↔ vals[j]?.bind parse = some v := by
    intro vals j v
    unfold floatAt
    rcases vals[j]? with _ | s
    · simp
    · simp only [Option.bind_some]
      rcases parse s with _ | w <;> simp
  have hlst : ∀ (h : Header) (m t : ℝ), headerLst parse mjd2lst h m = .ok t ↔ (match h.tcsst with
        | none => t = mjd2lst m
        | some s => ∃ x y z, ((split [':'] s)[0]?.bind parse) = some x ∧ ((split [':'] s)[1]?.bind parse) = some y ∧
            ((split [':'] s)[2]?.bind parse) = some z ∧ t = 15 * (x + y / 60 + z / 3600)) := by
    intro h m t
    unfold headerLst
    rcases h.tcsst with _ | s
    · exact ⟨fun e => (Except.ok.inj e).symm, fun e => congrArg Except.ok e.symm⟩
    · simp only [lstOfText, bind_iff, hfl]
      constructor
      · rintro ⟨x, hx, y, hy, z, hz, e⟩
        refine ⟨x, y, z, hx, hy, hz, ?_⟩
        rw [← Except.ok.inj e]; ring
      · rintro ⟨x, y, z, hx, hy, hz, e⟩
        refine ⟨x, hx, y, hy, z, hz, ?_⟩
        rw [e]
        show Except.ok _ = Except.ok _
        congr 1; ring
  have hhex : ∀ (h : Header) (v : ℝ), headerHexrot parse h = .ok v ↔
      (if h.hexpos then Model.Hexrot.readHexrotDeg parse h.vals = .ok v else v = 0) := by
    intro h v
    unfold headerHexrot
    cases h.hexpos
    · simp only [Bool.false_eq_true, if_false]
      exact ⟨fun e => (Except.ok.inj e).symm, fun e => congrArg Except.ok e.symm⟩
    · simp only [if_true]
  have hch : ∀ (h : Header), (h.nums.get? "TARGTRA".toList).isSome → (chooseHeader l = .ok h ↔
      (l[0]? = some h ∨ ((∃ g, l[0]? = some g ∧ g.nums.get? "TARGTRA".toList = none) ∧ l[1]? = some h))) := by
    intro h hh
    unfold chooseHeader
    rcases l with _ | ⟨g, t⟩
    · simp
    · simp only [List.getElem?_cons_zero, Option.some.injEq, List.getElem?_cons_succ]
      by_cases hg : (g.nums.get? "TARGTRA".toList).isSome
      · rw [if_pos hg]
        constructor
        · intro e; exact Or.inl (Except.ok.inj e)
        · rintro (rfl | ⟨⟨g', rfl, e⟩, -⟩)
          · rfl
          · rw [e] at hg; cases hg
      · rw [if_neg hg]
        have hg' : g.nums.get? "TARGTRA".toList = none := by simpa using hg
        rcases t with _ | ⟨g2, t⟩
        · simp only [reduceCtorEq, List.getElem?_nil, and_false, or_false, false_iff]
          rintro rfl
          exact hg hh
        · simp only [List.getElem?_cons_zero, Option.some.injEq]
          split_ifs with h2
          · constructor
            · intro e; exact Or.inr ⟨⟨g, rfl, hg'⟩, Except.ok.inj e⟩
            · rintro (rfl | ⟨-, rfl⟩)
              · exact absurd hh hg
              · rfl
          · constructor
            · intro e; cases e
            · rintro (rfl | ⟨-, rfl⟩)
              · exact absurd hh hg
              · exact absurd hh h2
  have hcs : ∀ h, chooseHeader l = .ok h → (h.nums.get? "TARGTRA".toList).isSome := by
    intro h e
    unfold chooseHeader at e
    rcases l with _ | ⟨g, t⟩
    · cases e
    · dsimp only at e
      split_ifs at e with h1
      · rw [← Except.ok.inj e]; exact h1
      · rcases t with _ | ⟨g2, t⟩
        · cases e
        · dsimp only at e
          split_ifs at e with h2
          rw [← Except.ok.inj e]; exact h2
  unfold inputs
  rw [hf]
  simp only [fromHeader, bind_iff, hnum, hlst, hhex]
  constructor
  · rintro ⟨h, h1, ra, h2, dec, h3, mjd, h4, lst, h5, hex, h6, e⟩
    obtain rfl := Except.ok.inj e
    exact ⟨h, (hch h (hcs h h1)).1 h1, h2, h3, h4, h5, h6⟩
  · rintro ⟨h, h1, h2, h3, h4, h5, h6⟩
    exact ⟨h, (hch h (by rw [h2]; rfl)).2 h1, _, h2, _, h3, _, h4, _, h5, _, h6, rfl⟩

/-- **C105** A pointing without declination or date in the header is a `KeyError`. -/
theorem C105_header_keys (mjd2lst : ℝ → ℝ) (parse : PyStr → Option ℝ) (l : List Header) (h : Header) (hc : chooseHeader l = .ok h)
    (hm : h.nums.get? "TARGTDEC".toList = none ∨ h.nums.get? "MJD-OBS".toList = none) : fromHeader parse mjd2lst l = .error .keyError := by
  unfold fromHeader
  rw [hc]
  change (number h "TARGTRA".toList >>= _) = _
  generalize "TARGTRA".toList = k1 at *
  generalize "TARGTDEC".toList = k2 at *
  generalize "MJD-OBS".toList = k3 at *
  unfold number
  rcases h.nums.get? k1 with _ | ra
  · rfl
  change ((match h.nums.get? k2 with | some v => Except.ok v | none => Except.error PyErr.keyError) >>= _) = _
  rcases e2 : h.nums.get? k2 with _ | dec
  · rfl
  rcases hm with hm | hm
  · rw [e2] at hm; cases hm
  change ((match h.nums.get? k3 with | some v => Except.ok v | none => Except.error PyErr.keyError) >>= _) = _
  rw [hm]
  rfl

/-- **C105** (finding) The script looks for HEXPOS but the angle is read from FOCUS: a header with HEXPOS and without FOCUS is a
KeyError, and the angle of a header with FOCUS and without HEXPOS is not used. -/
theorem C105_hexpos (parse : PyStr → Option ℝ) (h : Header) :
    (h.hexpos = true → h.vals.get? "FOCUS".toList = none → headerHexrot parse h = .error .keyError) ∧
    (h.hexpos = false → headerHexrot parse h = .ok 0) := by
  constructor
  · intro h1 h2
    unfold headerHexrot Model.Hexrot.readHexrotDeg
    rw [if_pos h1, h2]
  · intro h1
    unfold headerHexrot
    rw [h1]; rfl

/-- **C105** A sidereal time in the header which is not three numbers separated by colons is a ValueError (a text which is not a number) or an
IndexError (less than three texts), whichever comes first. -/
theorem C105_bad_lst (parse : PyStr → Option ℝ) (s : PyStr) (j : ℕ) (hj : j < 3) (hb : ∀ i < j, ((split [':'] s)[i]?.bind parse).isSome = true) :
    ((split [':'] s)[j]? = none → lstOfText parse s = .error .indexError) ∧
    (∀ x, (split [':'] s)[j]? = some x → parse x = none → lstOfText parse s = .error .valueError) := by
  have ok : ∀ i < j, ∃ v, floatAt parse (split [':'] s) i = .ok v := by
    intro i hi
    obtain ⟨v, hv⟩ := Option.isSome_iff_exists.1 (hb i hi)
    obtain ⟨x, hx, hp⟩ := Option.bind_eq_some_iff.1 hv
    exact ⟨v, by unfold floatAt; rw [hx]; dsimp only; rw [hp]⟩
  have step : ∀ e, floatAt parse (split [':'] s) j = .error e → lstOfText parse s = .error e := by
    intro e he
    unfold lstOfText
    dsimp only
    rcases j with _ | _ | _ | j
    · rw [he]; rfl
    · obtain ⟨a, ha⟩ := ok 0 (by omega)
      rw [ha, show (0 + 1) = 1 from rfl] at *
      rw [he]; rfl
    · obtain ⟨a, ha⟩ := ok 0 (by omega)
      obtain ⟨b, hb⟩ := ok 1 (by omega)
      rw [show (0 + 1 + 1) = 2 from rfl] at he
      rw [ha, hb, he]; rfl
    · omega
  refine ⟨fun h => step _ ?_, fun x h hp => step _ ?_⟩
  · unfold floatAt; rw [h]
  · unfold floatAt; rw [h]; dsimp only; rw [hp]

example : (split [':'] "22:32".toList)[2]? = none ∧ (split [':'] "22:32".toList)[1]? = some "32".toList := by decide

/-! ## What is printed -/

/-- **C105** A prediction is printed exactly if the inputs are known and the declination is within 90 degrees; then the rotation is that
of `FieldModel.compute_fieldrot` for an instrument without fitted distortion, and the rate is that of the polynomial (C56). -/
theorem C105_printed (env : Env) (parse : PyStr → Option ℝ) (a : Args) (out : Option ℝ × ℝ) :
    predict env parse a = .ok out ↔ ∃ i, inputs parse env.mjd2lst a = .ok i ∧ |i.dec| ≤ 90 ∧
      computeFieldrot env ⟨i.ra, i.dec, some i.mjd, some i.lst, some i.hexrot, some 1, some 1, some 0, some 0, some 0, 0, 0⟩ =
        .ok out.1 ∧ rate (n := 1) (fun _ => i.ra) (fun _ => i.dec) i.lst = .ok (fun _ => out.2) := by
  unfold predict dfieldrotdt fieldrot
  simp only [bind_iff]
  constructor
  · rintro ⟨i, h1, rot, h2, r, ⟨f, h3, e1⟩, e2⟩
    obtain rfl := Except.ok.inj e1
    obtain rfl := Except.ok.inj e2
    refine ⟨i, h1, ?_, h2, ?_⟩
    · by_contra hc
      push Not at hc
      rw [(C56_error (n := 1) (fun _ => i.ra) (fun _ => i.dec) i.lst).1.2 ⟨0, hc⟩] at h3
      cases h3
    · rw [h3]
      congr 1
      funext j
      rw [Subsingleton.elim j 0]
  · rintro ⟨i, h1, -, h2, h3⟩
    exact ⟨i, h1, _, h2, _, ⟨_, h3, rfl⟩, rfl⟩

/-- **C105** Given an hour angle, the rate printed depends on the hour angle (up to full turns) and declination only, not on right
ascension, date or hexapod angle. -/
theorem C105_rate_hour_angle (env : Env) (parse : PyStr → Option ℝ) (a b : Args) (ha hb : ℝ) (k : ℤ) (out out' : Option ℝ × ℝ)
    (h1 : a.fits = none ∧ a.lst = none ∧ a.ha = some ha) (h2 : b.fits = none ∧ b.lst = none ∧ b.ha = some hb)
    (hk : hb = ha + 360 * k) (hdec : a.dec = b.dec) (ho : predict env parse a = .ok out) (ho' : predict env parse b = .ok out') :
    out.2 = out'.2 := by
  obtain ⟨i, i1, -, -, i4⟩ := (C105_printed env parse a out).1 ho
  obtain ⟨j, j1, -, -, j4⟩ := (C105_printed env parse b out').1 ho'
  obtain ⟨ia, ib, -, ic, -⟩ := (C105_options _ parse a h1.1 i).1 i1
  obtain ⟨ja, jb, -, jc, -⟩ := (C105_options _ parse b h2.1 j).1 j1
  have li : i.lst = i.ra + ha := by
    rcases ic with h | ⟨-, r, h, hr, hh, e⟩ | ⟨-, h, -⟩
    · rw [h1.2.1] at h; cases h
    · rw [ia] at hr; rw [h1.2.2] at hh
      rw [e, Option.some.inj hr, Option.some.inj hh]
    · rw [h1.2.2] at h; cases h
  have lj : j.lst = j.ra + hb := by
    rcases jc with h | ⟨-, r, h, hr, hh, e⟩ | ⟨-, h, -⟩
    · rw [h2.2.1] at h; cases h
    · rw [ja] at hr; rw [h2.2.2] at hh
      rw [e, Option.some.inj hr, Option.some.inj hh]
    · rw [h2.2.2] at h; cases h
  have hd : i.dec = j.dec := by
    rw [ib, jb] at hdec; exact Option.some.inj hdec
  have key : Model.FieldRotRate.hourAngle i.ra i.lst = Model.FieldRotRate.hourAngle j.ra j.lst := by
    obtain ⟨a1, a2, m, a3⟩ := Frr.hourAngle_spec i.ra i.lst
    obtain ⟨b1, b2, n, b3⟩ := Frr.hourAngle_spec j.ra j.lst
    refine Frr.hourAngle_unique (d := ha) ⟨a1, a2, m, ?_⟩ ⟨b1, b2, n + k, ?_⟩
    · rw [a3, li]; ring
    · rw [b3, lj, hk]; push_cast; ring
  have e : rate (n := 1) (fun _ => i.ra) (fun _ => i.dec) i.lst = rate (n := 1) (fun _ => j.ra) (fun _ => j.dec) j.lst := by
    unfold rate
    simp only [key, hd]
  rw [i4, j4] at e
  exact congrFun (Except.ok.inj e) 0

/-- **C105** The physical rate is the difference of the rotations at two sidereal times a quarter of a degree apart, in arcsec, without
hexapod angle. -/
theorem C105_physical (env : Env) (ra dec mjd lst v : ℝ) :
    physicalRate env ra dec mjd lst = .ok (some v) ↔ ∃ a b, fieldrot env ra dec mjd (lst + 0.25) 0 = .ok (some a) ∧
      fieldrot env ra dec mjd lst 0 = .ok (some b) ∧ v = (a - b) * 3600 := by
  have e : lst + (1 : ℝ) / 60 / 24 * 360 = lst + 0.25 := by norm_num
  unfold physicalRate
  simp only [bind_iff]
  rw [e]
  constructor
  · rintro ⟨a, h1, b, h2, h3⟩
    have h3 := Except.ok.inj h3
    rcases a with _ | a
    · cases h3
    rcases b with _ | b
    · cases h3
    exact ⟨a, b, h1, h2, by rw [← Option.some.inj h3]; ring⟩
  · rintro ⟨a, b, h1, h2, rfl⟩
    refine ⟨_, h1, _, h2, ?_⟩
    show Except.ok (some _) = _
    congr 2; ring

/-! ## The fit of the rate -/

/-- The polynomial with the given coefficients, in the order of the printed line. -/
def cubic (c : Fin 10 → ℝ) (x y : ℝ) : ℝ :=
  c 0 + c 1 * x + c 2 * y + c 3 * (x * y) + c 4 * x ^ 2 + c 5 * y ^ 2 + c 6 * x ^ 3 + c 7 * (x ^ 2 * y) + c 8 * (x * y ^ 2) + c 9 * y ^ 3

/-- The rows used. -/
def Used (split : ℝ) (g : Guide) : Prop := g.mjd < split ∧ g.rate ≠ 0 ∧ g.rms < 200 ∧ 30 < g.nIter ∧ g.slopeStd < 0.2

theorem pred_design (c : Fin 10 → ℝ) (g : Guide) :
    Lemmas.LinAlg.pred design c g = cubic c (Real.sin (g.ha * (Real.pi / 180))) ((g.dec - 30) / 30) := by
  unfold Lemmas.LinAlg.pred design cubic
  simp only [Fin.sum_univ_succ, Fin.sum_univ_zero, radians]
  simp
  ring

theorem trunc_spec (v : ℝ) : |(truncate (v * 1000) : ℝ) / 1000 - v| < 0.001 ∧ |(truncate (v * 1000) : ℝ) / 1000| ≤ |v| := by
  unfold truncate
  split_ifs with h
  · have h1 := Int.floor_le (v * 1000)
    have h2 := Int.lt_floor_add_one (v * 1000)
    have h0 : (0 : ℝ) ≤ ⌊v * 1000⌋ := by exact_mod_cast Int.floor_nonneg.2 h
    have hv : 0 ≤ v := by linarith
    constructor
    · rw [abs_lt]; constructor <;> linarith
    · rw [abs_of_nonneg (by positivity), abs_of_nonneg hv]; linarith
  · push Not at h
    have h1 := Int.le_ceil (v * 1000)
    have h2 := Int.ceil_lt_add_one (v * 1000)
    have h0 : (⌈v * 1000⌉ : ℝ) ≤ 0 := by exact_mod_cast Int.ceil_nonpos.2 h.le
    have hv : v < 0 := by linarith
    constructor
    · rw [abs_lt]; constructor <;> linarith
    · rw [abs_of_nonpos (by linarith), abs_of_neg hv]; linarith

/-- **C105** The coefficients printed are those of the cubic polynomial in the sine of the hour angle and the scaled declination that
fits the rates of the selected rows best, cut off to three decimals: each is off by less than 0.001, towards zero. The fit fails exactly
if a polynomial other than zero vanishes on all selected rows. -/
theorem C105_fit (mjdSplit : ℝ) (l : List Guide) (s : List Guide) (hs : s = l.filter fun g => @decide (Used mjdSplit g) (Classical.dec _)) :
    ((∃ d : Fin 10 → ℝ, d ≠ 0 ∧ ∀ g ∈ s, cubic d (Real.sin (g.ha * (Real.pi / 180))) ((g.dec - 30) / 30) = 0) →
      fitRate mjdSplit l = .error .linAlgError) ∧
    ((∀ d : Fin 10 → ℝ, (∀ g ∈ s, cubic d (Real.sin (g.ha * (Real.pi / 180))) ((g.dec - 30) / 30) = 0) → d = 0) →
      ∃ c p, fitRate mjdSplit l = .ok c ∧ (∀ i, |c i - p i| < 0.001 ∧ |c i| ≤ |p i|) ∧
        (∀ d, (s.map fun g => (g.rate - cubic p (Real.sin (g.ha * (Real.pi / 180))) ((g.dec - 30) / 30)) ^ 2).sum ≤
          (s.map fun g => (g.rate - cubic d (Real.sin (g.ha * (Real.pi / 180))) ((g.dec - 30) / 30)) ^ 2).sum) ∧
        ∀ d, (∀ g ∈ s, g.rate = cubic d (Real.sin (g.ha * (Real.pi / 180))) ((g.dec - 30) / 30)) → p = d) := by
  have hsel : selectGuide mjdSplit l = s := by
    rw [hs]
    unfold selectGuide
    apply List.filter_congr
    intro g _
    simp only [Used, gt_iff_lt]
    congr
  have hdet := Lemmas.LinAlg.gram_singular_iff design s
  simp only [pred_design] at hdet
  constructor
  · intro h
    unfold fitRate linInv
    simp only [hsel]
    rw [if_pos (hdet.2 h)]
    rfl
  · intro h
    have hd : (gram design s).det ≠ 0 := by
      intro h0
      obtain ⟨v, hv, hz⟩ := hdet.1 h0
      exact hv (h v hz)
    refine ⟨_, (gram design s)⁻¹.mulVec (moments design Guide.rate s), ?_, fun i => trunc_spec _, ?_, ?_⟩
    · unfold fitRate linInv
      simp only [hsel]
      rw [if_neg hd]
      rfl
    · intro d
      have := Lemmas.LinAlg.solve_optimal hd Guide.rate d
      simpa only [pred_design] using this
    · intro d hx
      exact Lemmas.LinAlg.solve_exact hd (fun g hg => by rw [pred_design]; exact hx g hg)

/-- **C105** (finding) The polynomial of `dfieldrotdt`, said to be based on the output of this script, is one in HA/60 where that of the script is
one in sin(HA): at an hour angle of 30 degrees both are 1/2, but at 90 degrees they are 1.5 and 1, so the same coefficients give
different rates. -/
theorem C105_variables : ∃ c : Fin 10 → ℝ, (∀ x y, Model.FieldRotRate.poly x y = cubic c x y) ∧
    (∀ y, cubic c (30 / 60) y = cubic c (Real.sin (30 * (Real.pi / 180))) y) ∧
    ∃ y, |cubic c (90 / 60) y - cubic c (Real.sin (90 * (Real.pi / 180))) y| > 0.4 := by
  refine ⟨![-0.447, 0.065, -0.067, 0.021, 0.382, -0.121, -0.031, 0.196, 0.096, -0.043], ?_, ?_, 0, ?_⟩
  · intro x y
    unfold Model.FieldRotRate.poly cubic
    simp
    ring
  · intro y
    have : Real.sin (30 * (Real.pi / 180)) = 1 / 2 := by
      rw [show (30 : ℝ) * (Real.pi / 180) = Real.pi / 6 by ring]; exact Real.sin_pi_div_six
    rw [this]; norm_num
  · have : Real.sin (90 * (Real.pi / 180)) = 1 := by
      rw [show (90 : ℝ) * (Real.pi / 180) = Real.pi / 2 by ring]; exact Real.sin_pi_div_two
    rw [this]
    unfold cubic
    simp
    norm_num

/-- Inputs for which a prediction is made, by hour angle. -/
example (mjd2lst : ℝ → ℝ) (parse : PyStr → Option ℝ) :
    inputs parse mjd2lst ⟨some 10, some 20, none, some 30, some 59000, 36, none⟩ = .ok ⟨10, 20, 59000, 40, 0.01⟩ := by
  rw [C105_options _ _ _ rfl]
  refine ⟨rfl, rfl, rfl, Or.inr (Or.inl ⟨rfl, 10, 30, rfl, rfl, by norm_num⟩), by norm_num⟩

end Verif.Props.PredictRot
