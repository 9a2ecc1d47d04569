import Verif.Model.Json
import Verif.Lemmas.Pos2ptl

namespace Verif.Props
open Verif.Py Verif.Model.Json Verif.Model.SimpleCorr

/-- C23 (finding): what `SimpleCorr` writes it never reads back: the reader insists on
another name, so the explicit error `AssertionError` results for every object. -/
theorem C23_simplecorr_unreadable (c : Corr) : simpleFromJson (simpleToJson c) = .error .assertionError := by
  simp [simpleFromJson, simpleToJson, assertStr, getKey, List.lookup, bind, Except.bind]

/-- C23 (finding): the same for `TanCorr`. -/
theorem C23_tancorr_unreadable (c : TanCorrState) : tanFromJson (tanToJson c) = .error .assertionError := by
  simp [tanFromJson, tanToJson, assertStr, getKey, List.lookup, bind, Except.bind]

/-- C23: apart from the name, the `SimpleCorr` writer and reader agree on every field. -/
theorem C23_simplecorr_fields (c : Corr) :
    simpleFromJson (("name", .str "Tangent Plane Adjustment") :: (simpleToJson c).tail) =
      .ok [c.dx, c.dy, c.sxx, c.syy, c.sxy, c.rot_deg, c.nmatch, c.rms] := by
  simp [simpleFromJson, simpleToJson, assertStr, getNum, getKey, List.lookup, bind, Except.bind, pure, Except.pure]

/-- C23: apart from the name, the `TanCorr` writer and reader agree on every field. -/
theorem C23_tancorr_fields (c : TanCorrState) :
    tanFromJson (("name", .str "Tangent Plane Adjustment") :: (tanToJson c).tail) = .ok c := by
  simp [tanFromJson, tanToJson, assertStr, getNum, getKey, List.lookup, bind, Except.bind, pure, Except.pure]

/-- C23: a field model comes back with everything except the three switches, which become
`True`. -/
theorem C23_fieldmodel (m : FieldModelState) : fieldFromJson (fieldToJson m) =
    .ok { m with precession := true, aberration := true, polarMisalignment := true } := by
  simp [fieldFromJson, fieldToJson, assertStr, getKey, List.lookup, bind, Except.bind, pure, Except.pure]

/-- C23 (finding): so the reloaded field model is the written one exactly when all three
switches were on; otherwise it is silently a different model. -/
theorem C23_fieldmodel_same_iff (m : FieldModelState) : fieldFromJson (fieldToJson m) = .ok m ↔
    (m.precession = true ∧ m.aberration = true ∧ m.polarMisalignment = true) := by
  rw [C23_fieldmodel]
  constructor
  · intro h
    injection h with h
    exact ⟨by rw [← h], by rw [← h], by rw [← h]⟩
  · rintro ⟨h1, h2, h3⟩
    congr 1
    cases m; simp_all

theorem getNums_nums (l : List ℝ) (k : String) (d : Doc) (h : d.lookup k = some (nums l)) :
    getNums d k = .ok l := by
  unfold getNums getKey
  rw [h]
  simp only [bind, Except.bind, nums]
  induction l generalizing d with
  | nil => rfl
  | cons a l ih =>
    rw [List.map_cons, List.mapM_cons]
    have := ih [(k, nums l)] (by simp [List.lookup])
    simp only [bind, Except.bind, pure, Except.pure] at this ⊢
    rw [this]

/-- C23: a fitted fibre-camera transform is read back exactly, with all its statistics. -/
theorem C23_fvc2fp (t : FvcState) (f : Fitted) (hf : t.fitted = some f) :
    ∃ d, fvcToJson t = .ok d ∧ fvcFromJson d = .ok t := by
  obtain ⟨a, b, c, d, ids, cs, fit, m1, m2, m3, m4⟩ := t
  simp only at hf
  subst hf
  refine ⟨_, rfl, ?_⟩
  unfold fvcFromJson readIds
  rw [getNums_nums ids "zbpolids" _ (by simp [List.lookup]), getNums_nums cs "zbcoeffs" _ (by simp [List.lookup])]
  cases m1 <;> cases m2 <;> cases m3 <;> cases m4 <;>
  simp [isVersion2, assertStr, getKey, getNum, getOpt, getOpt', optField, List.lookup, bind, Except.bind, pure, Except.pure]

/-- C23: an object that was never fitted cannot be written (`AttributeError`). -/
theorem C23_fvc2fp_unfitted (t : FvcState) (h : t.fitted = none) : fvcToJson t = .error .attributeError := by
  unfold fvcToJson; rw [h]

/-- C23: version 1 documents get the eight ids they were written with; versions other than 1
and 2 and foreign documents are refused. -/
theorem C23_fvc2fp_versions (d : Doc) (t : FvcState) (h : fvcFromJson d = .ok t) :
    d.lookup "method" = some (.str "Zhao-Burge") ∧
    ((d.lookup "version" = some (.str "1") ∧ t.zbpolids = [2, 5, 6, 9, 20, 28, 29, 30]) ∨
     (d.lookup "version" = some (.str "2") ∧ getNums d "zbpolids" = .ok t.zbpolids)) := by
  unfold fvcFromJson at h
  obtain ⟨_, h0, h⟩ := Verif.Lemmas.bind_ok h
  obtain ⟨v, hv, h⟩ := Verif.Lemmas.bind_ok h
  obtain ⟨ids, hi, h⟩ := Verif.Lemmas.bind_ok h
  obtain ⟨_, _, h⟩ := Verif.Lemmas.bind_ok h
  obtain ⟨_, _, h⟩ := Verif.Lemmas.bind_ok h
  obtain ⟨_, _, h⟩ := Verif.Lemmas.bind_ok h
  obtain ⟨_, _, h⟩ := Verif.Lemmas.bind_ok h
  obtain ⟨z, hz, h⟩ := Verif.Lemmas.bind_ok h
  obtain ⟨_, _, h⟩ := Verif.Lemmas.bind_ok h
  obtain ⟨_, _, h⟩ := Verif.Lemmas.bind_ok h
  obtain ⟨_, _, h⟩ := Verif.Lemmas.bind_ok h
  obtain ⟨_, _, h⟩ := Verif.Lemmas.bind_ok h
  obtain ⟨_, _, h⟩ := Verif.Lemmas.bind_ok h
  obtain ⟨_, _, h⟩ := Verif.Lemmas.bind_ok h
  obtain ⟨_, _, h⟩ := Verif.Lemmas.bind_ok h
  obtain ⟨_, _, h⟩ := Verif.Lemmas.bind_ok h
  obtain ⟨_, _, h⟩ := Verif.Lemmas.bind_ok h
  injection h with h
  have hzt : t.zbpolids = z := by rw [← h]
  have hm : d.lookup "method" = some (.str "Zhao-Burge") := by
    unfold assertStr getKey at h0
    obtain ⟨w, hw, h0⟩ := Verif.Lemmas.bind_ok h0
    split at hw
    · rename_i hl
      injection hw with hw
      subst hw
      split at h0
      · split_ifs at h0 with hs
        rw [hl, hs]
      · cases h0
    · cases hw
  have hvl : d.lookup "version" = some v := by
    unfold getKey at hv
    split at hv
    · rename_i hl; injection hv with hv; rw [hl, hv]
    · cases hv
  refine ⟨hm, ?_⟩
  rw [hvl, hzt]
  unfold isVersion2 at hi
  split at hi
  · split_ifs at hi with h1 h2
    · injection hi with hi; subst hi
      injection hz with hz
      exact Or.inl ⟨by rw [h1], hz.symm⟩
    · injection hi with hi; subst hi
      exact Or.inr ⟨by rw [h2], hz⟩
  · cases hi

theorem rows_flatten (m : Nat) (z : List (List ℝ)) (h : ∀ r ∈ z, r.length = m) :
    rows m z.length z.flatten = z := by
  induction z with
  | nil => rfl
  | cons r z ih =>
    have hr := h r (by simp)
    rw [List.length_cons, rows, List.flatten_cons, List.take_left' hr, List.drop_left' hr,
      ih fun r' h' => h r' (by simp [h'])]

theorem length_flatten (m : Nat) (z : List (List ℝ)) (h : ∀ r ∈ z, r.length = m) :
    z.flatten.length = z.length * m := by
  induction z with
  | nil => simp
  | cons r z ih =>
    rw [List.flatten_cons, List.length_append, h r (by simp), ih fun r' h' => h r' (by simp [h']), List.length_cons]
    ring

/-- C23: a ray-trace model (one row of coefficients per ADC setting, one column per id) is
read back exactly. -/
theorem C23_raytrace (t : RayState) (h1 : t.zbcoeffs.length = t.adc1.length)
    (h2 : ∀ r ∈ t.zbcoeffs, r.length = t.zbpolids.length) : rayFromJson (rayToJson t) = .ok t := by
  obtain ⟨a1, a2, s, r, ox, oy, ids, z⟩ := t
  simp only at h1 h2
  unfold rayFromJson
  rw [getNums_nums a1 "adc1" _ (by simp [rayToJson, List.lookup]),
    getNums_nums a2 "adc2" _ (by simp [rayToJson, List.lookup]),
    getNums_nums s "scale" _ (by simp [rayToJson, List.lookup]),
    getNums_nums r "rotation" _ (by simp [rayToJson, List.lookup]),
    getNums_nums ox "offset_x" _ (by simp [rayToJson, List.lookup]),
    getNums_nums oy "offset_y" _ (by simp [rayToJson, List.lookup]),
    getNums_nums ids "zbpolids" _ (by simp [rayToJson, List.lookup]),
    getNums_nums z.flatten "zbcoeffs" _ (by simp [rayToJson, List.lookup])]
  have hz : reshape a1.length ids.length z.flatten = .ok z := by
    unfold reshape
    rw [if_pos (by rw [length_flatten _ z h2, h1]), ← h1, rows_flatten _ z h2]
  simp [assertStr, getKey, rayToJson, List.lookup, bind, Except.bind, pure, Except.pure, hz]

/-- C23: a ray-trace document with another number of coefficients than settings times ids is refused (ValueError). -/
theorem C23_raytrace_malformed (t : RayState) (h : t.zbcoeffs.flatten.length ≠ t.adc1.length * t.zbpolids.length) :
    rayFromJson (rayToJson t) = .error .valueError := by
  obtain ⟨a1, a2, s, r, ox, oy, ids, z⟩ := t
  simp only at h
  unfold rayFromJson
  rw [getNums_nums a1 "adc1" _ (by simp [rayToJson, List.lookup]),
    getNums_nums a2 "adc2" _ (by simp [rayToJson, List.lookup]),
    getNums_nums s "scale" _ (by simp [rayToJson, List.lookup]),
    getNums_nums r "rotation" _ (by simp [rayToJson, List.lookup]),
    getNums_nums ox "offset_x" _ (by simp [rayToJson, List.lookup]),
    getNums_nums oy "offset_y" _ (by simp [rayToJson, List.lookup]),
    getNums_nums ids "zbpolids" _ (by simp [rayToJson, List.lookup]),
    getNums_nums z.flatten "zbcoeffs" _ (by simp [rayToJson, List.lookup])]
  have hz : reshape a1.length ids.length z.flatten = .error .valueError := by
    unfold reshape
    rw [if_neg h]
  simp only [assertStr, getKey, rayToJson, List.lookup, bind, Except.bind, pure, Except.pure, hz]
  simp

example : ∃ t : RayState, t.zbcoeffs.length = t.adc1.length ∧ (∀ r ∈ t.zbcoeffs, r.length = t.zbpolids.length) ∧
    t.zbcoeffs ≠ [] := ⟨⟨[0, 90], [0, 90], [1, 1], [0, 0], [0, 0], [0, 0], [0, 1, 2], [[1, 2, 3], [4, 5, 6]]⟩, by simp⟩

end Verif.Props
