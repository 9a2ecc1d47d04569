import Verif.Props.Json
import Verif.Props.FvcFit
import Verif.Props.PrepareCommit
import Verif.Props.Brightimage
import Verif.Props.Sky
import Mathlib.Tactic.NormNum

/-!
# Statements added after mutation tests

Each theorem here fixes a detail of the model that an earlier set of theorems left open: a wrong
model with that detail changed still satisfied them.
-/

namespace Verif.Props
open Verif.Py

/-! ### C23: attributes read from a document -/

section Attributes
open Verif.Model.Json

/-- `v` is the number under key `k`, or `dflt` when there is no such key. -/
def NumOr (d : Doc) (k : String) (dflt v : ℝ) : Prop :=
  d.lookup k = some (.num v) ∨ (d.lookup k = none ∧ v = dflt)

/-- `v` is the number under key `k`, and missing exactly when there is no such key. -/
def NumOpt (d : Doc) (k : String) (v : Option ℝ) : Prop :=
  (∃ x, d.lookup k = some (.num x) ∧ v = some x) ∨ (d.lookup k = none ∧ v = none)

theorem getOpt_spec {d : Doc} {k : String} {a v : ℝ} (h : getOpt d k a = .ok v) : NumOr d k a v := by
  unfold getOpt at h
  split at h
  · rename_i hl; injection h with h; exact Or.inr ⟨hl, h.symm⟩
  · rename_i hl; injection h with h; subst h; exact Or.inl hl
  · cases h

theorem getOpt'_spec {d : Doc} {k : String} {v : Option ℝ} (h : getOpt' d k = .ok v) : NumOpt d k v := by
  unfold getOpt' at h
  split at h
  · rename_i hl; injection h with h; exact Or.inr ⟨hl, h.symm⟩
  · rename_i hl; injection h with h; exact Or.inl ⟨_, hl, h.symm⟩
  · cases h

theorem getNum_spec {d : Doc} {k : String} {v : ℝ} (h : getNum d k = .ok v) : d.lookup k = some (.num v) := by
  unfold getNum getKey at h
  obtain ⟨w, hw, h⟩ := Verif.Lemmas.bind_ok h
  split at hw
  · rename_i hl
    injection hw with hw; subst hw
    split at h
    · injection h with h; subst h; exact hl
    · cases h
  · cases hw

/-- **C23** Whatever a readable document contains, the object read has exactly the numbers of the document, and
where pixel normalisation keys are missing (old documents) the values -3000, 3000, 3000, 3000. -/
theorem C23_fvc2fp_attributes (d : Doc) (t : FvcState) (h : fvcFromJson d = .ok t) :
    NumOr d "xfvc_scale" (-3000) t.xfvcScale ∧ NumOr d "yfvc_scale" 3000 t.yfvcScale ∧
    NumOr d "xfvc_offset" 3000 t.xfvcOffset ∧ NumOr d "yfvc_offset" 3000 t.yfvcOffset ∧
    (∃ f, t.fitted = some f ∧ d.lookup "scale" = some (.num f.scale) ∧ d.lookup "rotation" = some (.num f.rotation) ∧
      d.lookup "offset_x" = some (.num f.offsetX) ∧ d.lookup "offset_y" = some (.num f.offsetY)) ∧
    getNums d "zbcoeffs" = .ok t.zbcoeffs ∧
    NumOpt d "meandistance" t.meandistance ∧ NumOpt d "mediandistance" t.mediandistance ∧
    NumOpt d "rmsdistance" t.rmsdistance ∧ NumOpt d "nmatch" t.nmatch := by
  unfold fvcFromJson at h
  obtain ⟨_, -, h⟩ := Verif.Lemmas.bind_ok h
  obtain ⟨v, -, h⟩ := Verif.Lemmas.bind_ok h
  obtain ⟨ids, -, h⟩ := Verif.Lemmas.bind_ok h
  obtain ⟨_, a1, h⟩ := Verif.Lemmas.bind_ok h
  obtain ⟨_, a2, h⟩ := Verif.Lemmas.bind_ok h
  obtain ⟨_, a3, h⟩ := Verif.Lemmas.bind_ok h
  obtain ⟨_, a4, h⟩ := Verif.Lemmas.bind_ok h
  obtain ⟨z, -, h⟩ := Verif.Lemmas.bind_ok h
  obtain ⟨_, a5, h⟩ := Verif.Lemmas.bind_ok h
  obtain ⟨_, b1, h⟩ := Verif.Lemmas.bind_ok h
  obtain ⟨_, b2, h⟩ := Verif.Lemmas.bind_ok h
  obtain ⟨_, b3, h⟩ := Verif.Lemmas.bind_ok h
  obtain ⟨_, b4, h⟩ := Verif.Lemmas.bind_ok h
  obtain ⟨_, b5, h⟩ := Verif.Lemmas.bind_ok h
  obtain ⟨_, b6, h⟩ := Verif.Lemmas.bind_ok h
  obtain ⟨_, b7, h⟩ := Verif.Lemmas.bind_ok h
  obtain ⟨_, b8, h⟩ := Verif.Lemmas.bind_ok h
  injection h with h
  subst h
  exact ⟨getOpt_spec b1, getOpt_spec b2, getOpt_spec b3, getOpt_spec b4,
    ⟨_, rfl, getNum_spec a1, getNum_spec a2, getNum_spec a3, getNum_spec a4⟩, a5,
    getOpt'_spec b5, getOpt'_spec b6, getOpt'_spec b7, getOpt'_spec b8⟩

end Attributes

/-! ### C36: goodness of fit -/

section Goodness
open Verif.Model.FvcFit Verif.Model.Fvc2fp Ff
open Verif.Model.MatchPositioners (median)

/-- `m` is the median: the mean of the two middle values (the middle value twice for odd length) in
ascending order. -/
def MedianOf (m : ℝ) (l : List ℝ) : Prop :=
  ∃ s : List ℝ, s.Perm l ∧ s.Pairwise (· ≤ ·) ∧ ∃ a b, s[(l.length - 1) / 2]? = some a ∧ s[l.length / 2]? = some b ∧ m = (a + b) / 2

theorem median_medianOf {l : List ℝ} (h : l ≠ []) : MedianOf (median l) l := by
  have hl : 0 < l.length := List.length_pos_iff.2 h
  have hs := Lemmas.length_pySort (id : ℝ → ℝ) l
  have h1 : (l.length - 1) / 2 < (pySort (id : ℝ → ℝ) l).length := by omega
  have h2 : l.length / 2 < (pySort (id : ℝ → ℝ) l).length := by omega
  refine ⟨pySort id l, Lemmas.perm_pySort _ _, Lemmas.sorted_pySort _ _, _, _, List.getElem?_eq_getElem h1, List.getElem?_eq_getElem h2, ?_⟩
  unfold median
  simp only [List.getD, List.getElem?_eq_getElem h1, List.getElem?_eq_getElem h2, Option.getD_some]

/-- Distance between the position of a fiducial spot in the focal plane (`F` of its pixel) and its metrology. -/
noncomputable def miss (F : ℝ × ℝ → ℝ × ℝ) (metrology : List Metro) (s : Spot) : ℝ :=
  Real.sqrt (((entry metrology s).1 - (F (s.xpix, s.ypix)).1) ^ 2 + ((entry metrology s).2.1 - (F (s.xpix, s.ypix)).2) ^ 2)

theorem find_same {metrology : List Metro} (hm : (metrology.map fun m => (m.loc, m.pin)).Nodup) {s : Spot} {m : Metro}
    (h : m ∈ metrology) (hs : same s m) : metrology.find? (fun m => decide (same s m)) = some m := by
  induction metrology with
  | nil => cases h
  | cons a l ih =>
    rw [List.map_cons, List.nodup_cons] at hm
    rcases List.mem_cons.1 h with rfl | h
    · rw [List.find?_cons_of_pos (by simpa using hs)]
    · rw [List.find?_cons_of_neg, ih hm.2 h]
      intro ha
      simp only [decide_eq_true_eq] at ha
      apply hm.1
      refine List.mem_map.2 ⟨m, h, ?_⟩
      rw [← hs.1, ← hs.2, ha.1, ha.2]

theorem zip_miss {metrology : List Metro} (hm : (metrology.map fun m => (m.loc, m.pin)).Nodup) {fid : List Spot} {met : List Metro}
    (hsame : List.Forall₂ same fid met) (hin : ∀ m ∈ met, m ∈ metrology) (hfid : ∀ s ∈ fid, isFid s) (F : ℝ × ℝ → ℝ × ℝ) :
    List.zipWith (fun (m : Metro) (p : ℝ × ℝ) => hypot (m.x - p.1) (m.y - p.2)) met (fid.map fun s => F (s.xpix, s.ypix)) =
      fid.map (miss F metrology) := by
  induction hsame with
  | nil => rfl
  | @cons s m fid met hsm _ ih =>
    have he : entry metrology s = (m.x, m.y, m.z) := by
      unfold entry
      rw [if_pos (hfid s List.mem_cons_self), find_same hm (hin m List.mem_cons_self) hsm]
    rw [List.map_cons, List.zipWith_cons_cons, List.map_cons, ih (fun m h => hin m (List.mem_cons_of_mem _ h))
      (fun s h => hfid s (List.mem_cons_of_mem _ h))]
    congr 1
    unfold miss hypot
    rw [he]

/-- **C36** The reported mean, median and rms distance are those of the distances between every fiducial spot, transformed with
the fitted transformation `F`, and its own metrology entry, in microns (thousandths of the unit of the metrology). -/
theorem C36_goodness (env : Env) (hs : SortOk env.sortS env.sortM) (t t' : FVC2FP) (o : Opts) (g : Goodness)
    (spots : List Spot) (metrology : List Metro) (hn : ((fids spots).map fun s => (s.loc, s.pin)).Nodup)
    (hm : (metrology.map fun m => (m.loc, m.pin)).Nodup) (hl : (fids spots).length ≠ 1) (x : Option (List OutSpot))
    (h : fit env t o spots metrology = .ok (t', g, x)) (F : ℝ × ℝ → ℝ × ℝ) (hF : ∀ l, t'.fvc2fp l = .ok (l.map F)) :
    ∃ d : List ℝ, d.Perm ((spots.filter fun s => decide (isFid s)).map (miss F metrology)) ∧
      g.mean = 1000 * (d.sum / d.length) ∧ g.rms = 1000 * Real.sqrt ((d.map (· ^ 2)).sum / d.length) ∧
      (d ≠ [] → ∃ m, MedianOf m d ∧ g.median = 1000 * m) ∧ g.nmatch = d.length := by
  unfold fit at h
  obtain ⟨⟨fid, met⟩, h1, h⟩ := Lemmas.bind_ok h
  dsimp only at h
  obtain ⟨r, -, h⟩ := Lemmas.bind_ok h
  obtain ⟨g', h3, h⟩ := Lemmas.bind_ok h
  have htg : goodness t' fid met = .ok g := by
    split_ifs at h with hu
    · obtain ⟨out, -, h⟩ := Lemmas.bind_ok h
      simp only [pure, Except.pure, Except.ok.injEq, Prod.mk.injEq] at h
      obtain ⟨ht, hg, -⟩ := h
      rw [← ht, ← hg]; exact h3
    · simp only [pure, Except.pure, Except.ok.injEq, Prod.mk.injEq] at h
      obtain ⟨ht, hg, -⟩ := h
      rw [← ht, ← hg]; exact h3
  obtain ⟨hsame, hperm, hsub⟩ := C36_pairs env.sortS env.sortM hs spots metrology hn hm hl fid met h1
  have hd : List.zipWith (fun (m : Metro) (p : ℝ × ℝ) => hypot (m.x - p.1) (m.y - p.2)) met (fid.map fun s => F (s.xpix, s.ypix)) =
      fid.map (miss F metrology) := by
    have hin : ∀ m ∈ met, m ∈ metrology := fun m hm => hsub.subset hm
    have hfid : ∀ s ∈ fid, isFid s := fun s hs => by
      have := hperm.mem_iff.1 hs
      simpa using (List.mem_filter.1 this).2
    exact zip_miss hm hsame hin hfid F
  unfold goodness at htg
  rw [hF, List.map_map] at htg
  simp only [bind, Except.bind, pure, Except.pure, Except.ok.injEq] at htg
  have hd' : List.zipWith (fun (m : Metro) (p : ℝ × ℝ) => hypot (m.x - p.1) (m.y - p.2)) met
      (fid.map (F ∘ fun s => (s.xpix, s.ypix))) = fid.map (miss F metrology) := hd
  rw [hd'] at htg
  subst htg
  refine ⟨fid.map (miss F metrology), hperm.map _, rfl, ?_, ?_, ?_⟩
  · simp only [mean, List.length_map]
  · intro hne
    exact ⟨_, median_medianOf hne, rfl⟩
  · simp

/-- Three distances: the median is the middle one. -/
example : MedianOf 2 [3, 1, 2] := ⟨[1, 2, 3], List.perm_append_comm (l₁ := [1, 2]) (l₂ := [3]), by norm_num, 2, 2, rfl, rfl, by norm_num⟩

end Goodness

/-! ### C46: end of the adjustment dialogue -/

section Dialogue
open Verif.Model.Prepare Prep

/-- **C46** Answering 'exit' to the adjustment question ends the program with exit code 0, whatever the check gave. -/
theorem C46_adjust_exit {τ : Type} (parse : PyStr → Option ℝ) (run : ℝ → Except PyErr τ) (v : ℝ) (out : τ) (l : PyStr)
    (rest : List PyStr) (h : MeansExit l) : adjust parse run .again v out (l :: rest) = .error (.sysExit 0) := by
  have hc : classify l = some none := by
    have key : ∀ ws : List PyStr, "exit".toList ∉ ws → lower (input2 l) ∉ ws := by
      intro ws hw hm
      have := (exit_iff l).2 h
      simp only [List.mem_cons, List.not_mem_nil, or_false] at this
      rw [this] at hm
      exact hw hm
    unfold classify
    dsimp only
    rw [if_neg (key _ (by decide)), if_neg (key _ (by decide)), if_neg (key _ (by decide)), if_pos ((exit_iff l).2 h)]
  rw [adjust, hc]

/-- **C46** The adjustment dialogue never fails otherwise: it ends with a result, with exit code 0, because the input ends, or with
an exception of the check itself. -/
theorem C46_adjust_ends {τ : Type} (parse : PyStr → Option ℝ) (run : ℝ → Except PyErr τ) (inp : List PyStr) (pr : Prompt)
    (v : ℝ) (out : τ) (e : PyErr) (h : adjust parse run pr v out inp = .error e) :
    e = .eofError ∨ e = .sysExit 0 ∨ ∃ w, run w = .error e := by
  induction inp generalizing pr v out with
  | nil =>
    cases pr <;> (rw [adjust] at h; injection h with h; exact Or.inl h.symm)
  | cons l inp ih =>
    cases pr with
    | again =>
      rw [adjust] at h
      split at h
      · exact ih _ _ _ h
      · injection h with h; exact Or.inr (Or.inl h.symm)
      · exact ih _ _ _ h
      · cases h
      · exact ih _ _ _ h
    | value =>
      rw [adjust] at h
      split_ifs at h with h1 h2
      · injection h with h; exact Or.inr (Or.inl h.symm)
      · split at h
        · exact ih _ _ _ h
        · split_ifs at h
          split at h
          · rename_i hw; injection h with h; subst h; exact Or.inr (Or.inr ⟨_, hw⟩)
          · exact ih _ _ _ h

end Dialogue

/-! ### C55: rounding of spot positions -/

section Rounding
open Verif.Model.Brightimage

/-- **C55** The centre pixel of a stamp is the pixel nearest to the spot; half way between two it is the even one. -/
theorem C55_rounding (x : ℝ) (n : ℤ) : pyRound x = n ↔ |x - n| < 1 / 2 ∨ (|x - n| = 1 / 2 ∧ Even n) := by
  have hf := Int.floor_add_fract x
  have h0 := Int.fract_nonneg x
  have h1 := Int.fract_lt_one x
  have uniq : ∀ a b : ℤ, (|x - a| < 1 / 2 ∨ (|x - a| = 1 / 2 ∧ Even a)) → (|x - b| < 1 / 2 ∨ (|x - b| = 1 / 2 ∧ Even b)) → a = b := by
    intro a b ha hb
    have hab : |(a : ℝ) - b| ≤ |x - a| + |x - b| := by
      have := abs_sub_le (a : ℝ) x b
      rwa [abs_sub_comm (a : ℝ) x] at this
    have ha' : |x - a| ≤ 1 / 2 := ha.elim le_of_lt fun h => h.1.le
    have hb' : |x - b| ≤ 1 / 2 := hb.elim le_of_lt fun h => h.1.le
    have hle : |a - b| ≤ 1 := by
      have : |(a : ℝ) - b| ≤ 1 := by linarith
      exact_mod_cast this
    rcases ha with ha | ⟨ha, ea⟩
    · have : |(a : ℝ) - b| < 1 := by linarith
      have : |a - b| < 1 := by exact_mod_cast this
      have := abs_lt.1 this
      omega
    · rcases hb with hb | ⟨hb, eb⟩
      · have : |(a : ℝ) - b| < 1 := by linarith
        have : |a - b| < 1 := by exact_mod_cast this
        have := abs_lt.1 this
        omega
      · have := abs_le.1 hle
        rw [Int.even_iff] at ea eb
        omega
  have main : |x - pyRound x| < 1 / 2 ∨ (|x - pyRound x| = 1 / 2 ∧ Even (pyRound x)) := by
    unfold pyRound
    dsimp only
    split_ifs with c1 c2 c3
    · left
      rw [abs_lt]; constructor <;> linarith
    · left
      push_cast
      rw [abs_lt]; constructor <;> linarith
    · right
      refine ⟨?_, Int.even_iff.2 c3⟩
      rw [abs_of_nonneg (by linarith)]; linarith
    · right
      have e : x - ((⌊x⌋ + 1 : ℤ) : ℝ) = -(1 / 2) := by push_cast; linarith
      refine ⟨by rw [e, abs_neg, abs_of_pos (by norm_num)], ?_⟩
      rw [Int.even_iff]; omega
  constructor
  · rintro rfl; exact main
  · intro h; exact uniq _ _ main h

end Rounding

/-! ### C18: tabulated polar misalignment -/

section Tabulated
open Verif.Model.Trig Verif.Model.Radec2tan

/-- The rows of a matrix are orthonormal up to `ε`. -/
def NearlyOrthonormal (ε : ℝ) (m : M3) : Prop :=
  |dot m.r0 m.r0 - 1| ≤ ε ∧ |dot m.r1 m.r1 - 1| ≤ ε ∧ |dot m.r2 m.r2 - 1| ≤ ε ∧
  |dot m.r0 m.r1| ≤ ε ∧ |dot m.r0 m.r2| ≤ ε ∧ |dot m.r1 m.r2| ≤ ε

/-- **C18** With the tabulated polar misalignment, both matrices are rotations to 2e-15. -/
theorem C18_hardcoded_rotation (b : Bool) : NearlyOrthonormal 2e-15 (hardcodedPolmis b) := by
  cases b <;> unfold hardcodedPolmis NearlyOrthonormal dot <;>
    simp only [Bool.false_eq_true, if_false, if_true] <;>
    refine ⟨?_, ?_, ?_, ?_, ?_, ?_⟩ <;> rw [abs_le] <;> constructor <;> norm_num

/-- **C18** Going to the mount frame and back with the tabulated matrices moves no coordinate of a direction by more than 6e-9
(1.3 milliarcseconds). -/
theorem C18_hardcoded_inverse (sw : Switches) (h : sw.hardcoded = true) (v : V3) (hv : v.x ^ 2 + v.y ^ 2 + v.z ^ 2 = 1) :
    |((polmisInv sw).app ((polmis sw).app v)).x - v.x| ≤ 6e-9 ∧ |((polmisInv sw).app ((polmis sw).app v)).y - v.y| ≤ 6e-9 ∧
    |((polmisInv sw).app ((polmis sw).app v)).z - v.z| ≤ 6e-9 := by
  have hx : |v.x| ≤ 1 := abs_le_one_iff_mul_self_le_one.2 (by nlinarith [sq_nonneg v.y, sq_nonneg v.z])
  have hy : |v.y| ≤ 1 := abs_le_one_iff_mul_self_le_one.2 (by nlinarith [sq_nonneg v.x, sq_nonneg v.z])
  have hz : |v.z| ≤ 1 := abs_le_one_iff_mul_self_le_one.2 (by nlinarith [sq_nonneg v.y, sq_nonneg v.x])
  rw [abs_le] at hx hy hz
  unfold polmis polmisInv hardcodedPolmis M3.app dot
  simp only [h, Bool.false_eq_true, if_false, if_true]
  refine ⟨?_, ?_, ?_⟩ <;> rw [abs_le] <;> constructor <;> nlinarith [hx.1, hx.2, hy.1, hy.2, hz.1, hz.2]

/-- **C18** Without the tabulated matrices, the mount pole is 120 arcseconds above the true pole and 2 arcseconds to the west of it: this
direction is carried onto the pole, and the matrix of the way back carries the opposite misalignment onto the pole. -/
theorem C18_mount_pole (sw : Switches) (h : sw.hardcoded = false) (a : ℝ) :
    (polmis sw).app (Lemmas.Sky.xyz (altaz2hadec (31.96403 + 120 / 3600, -2 / 3600))) = Lemmas.Sky.xyz (a, 90) ∧
    (polmisInv sw).app (Lemmas.Sky.xyz (altaz2hadec (31.96403 - 120 / 3600, 2 / 3600))) = Lemmas.Sky.xyz (a, 90) := by
  have e1 : polmis sw = polarMisalignment (-120) (-2) := by
    unfold polmis ME_ARCSEC MA_ARCSEC; simp [h]
  have e2 : polmisInv sw = polarMisalignment 120 2 := by
    unfold polmisInv ME_ARCSEC MA_ARCSEC; simp [h]
  constructor
  · rw [e1]
    have := (C18_polar_misalignment (-120) (-2) (by rw [abs_le]; norm_num) (by rw [abs_le]; norm_num) a).2
    rwa [show (31.96403 : ℝ) - -120 / 3600 = 31.96403 + 120 / 3600 by ring] at this
  · rw [e2]
    exact (C18_polar_misalignment 120 2 (by rw [abs_le]; norm_num) (by rw [abs_le]; norm_num) a).2

/-- A unit direction. -/
example : ∃ v : V3, v.x ^ 2 + v.y ^ 2 + v.z ^ 2 = 1 := ⟨⟨0.6, 0, 0.8⟩, by norm_num⟩

end Tabulated

end Verif.Props
