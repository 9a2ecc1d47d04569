import Verif.Model.Knees
import Verif.Props.Match
import Verif.Props.RayRun
import Verif.Props.Tighten
import Verif.Props.FpMetrology
import Verif.Lemmas.Trig
import Verif.Lemmas.Sky

/-!
# C112: knees of the positioners in a front illuminated image
-/

namespace Verif.Props.Knees
open Verif.Py Verif.Model.Knees
open Verif.Model.Match (matchSame)
open Verif.Props.RayRun (bind_iff mapM_iff)
open Verif.Props (Sorts Nearest MedianOf)

variable {δ μ : Type}

/-- Distance in the plane. -/
noncomputable def gap (p q : ℝ × ℝ) : ℝ := Real.sqrt ((p.1 - q.1) ^ 2 + (p.2 - q.2) ^ 2)

theorem gap_eq : Verif.Model.Match.dist2 = gap := rfl

/-! ## Choice of spots -/

/-- The numbers of a comma separated text. -/
def Numbers (parse : PyStr → Option ℝ) (s : PyStr) (l : List ℝ) : Prop := List.Forall₂ (fun v x => parse v = some x) (split [','] s) l

theorem floats_iff (parse : PyStr → Option ℝ) (s : PyStr) (l : List ℝ) : floats parse s = .ok l ↔ Numbers parse s l := by
  unfold floats Numbers
  rw [mapM_iff]
  constructor <;> intro h <;> refine h.imp fun v x hv => ?_
  · rcases e : parse v with _ | y
    · rw [e] at hv; cases hv
    · rw [e] at hv; exact congrArg some (Except.ok.inj hv)
  · rw [hv]

theorem floats_error (parse : PyStr → Option ℝ) (s : PyStr) (v : PyStr) (hv : v ∈ split [','] s) (h : parse v = none) : floats parse s = .error .valueError := by
  unfold floats
  generalize split [','] s = l at hv
  induction l with
  | nil => cases hv
  | cons a l ih =>
    rw [List.mapM_cons]
    rcases e : parse a with _ | x
    · rfl
    · rcases List.mem_cons.1 hv with rfl | hv
      · rw [h] at e; cases e
      · rw [ih hv]; rfl

/-- **C112** A part of one of the two options that is no number is a ValueError, and pixels without `--ypix` an AttributeError. -/
theorem C112_no_number (parse : PyStr → Option ℝ) (a : Args) (spots : List (Tip δ)) (xs : PyStr) (hx : a.xpix = some xs) :
    ((∃ v ∈ split [','] xs, parse v = none) → selectPix parse a spots = .error .valueError) ∧
    (∀ x, Numbers parse xs x → a.ypix = none → selectPix parse a spots = .error .attributeError) ∧
    (∀ x ys, Numbers parse xs x → a.ypix = some ys → (∃ v ∈ split [','] ys, parse v = none) → selectPix parse a spots = .error .valueError) := by
  unfold selectPix
  rw [hx]
  refine ⟨?_, ?_, ?_⟩
  · rintro ⟨v, hv, h⟩
    dsimp only
    rw [floats_error parse xs v hv h]
    rfl
  · intro x h hy
    dsimp only
    rw [(floats_iff _ _ _).2 h, hy]
    rfl
  · rintro x ys h hy ⟨v, hv, hn⟩
    dsimp only
    rw [(floats_iff _ _ _).2 h, hy]
    dsimp only
    rw [floats_error parse ys v hv hn]
    rfl

/-- **C112** Without `--xpix` all spots are used. With it, and numbers in both options, those within 10 pixels of one of the pixels given, where
the first x goes with the first y and so on. -/
theorem C112_pixels (parse : PyStr → Option ℝ) (a : Args) (spots kept : List (Tip δ)) :
    (a.xpix = none → selectPix parse a spots = .ok spots) ∧
    (∀ xs, a.xpix = some xs → (selectPix parse a spots = .ok kept ↔ ∃ ys x y, a.ypix = some ys ∧ Numbers parse xs x ∧ Numbers parse ys y ∧
      kept = spots.filter fun s => @decide (∃ (i : ℕ) (u v : ℝ), x[i]? = some u ∧ y[i]? = some v ∧ gap s.pix (u, v) < 10) (Classical.dec _))) := by
  constructor
  · intro h
    unfold selectPix
    rw [h]
  · intro xs h
    unfold selectPix
    rw [h]
    dsimp only
    rw [bind_iff]
    have hany : ∀ (x y : List ℝ) (s : Tip δ), (x.zip y).any (near s) =
        @decide (∃ (i : ℕ) (u v : ℝ), x[i]? = some u ∧ y[i]? = some v ∧ gap s.pix (u, v) < 10) (Classical.dec _) := by
      intro x y s
      rw [Bool.eq_iff_iff, List.any_eq_true, @decide_eq_true_iff _ (Classical.dec _)]
      constructor
      · rintro ⟨⟨u, v⟩, hm, hn⟩
        obtain ⟨i, hi⟩ := List.mem_iff_getElem?.1 hm
        rw [List.getElem?_zip_eq_some] at hi
        exact ⟨i, u, v, hi.1, hi.2, of_decide_eq_true hn⟩
      · rintro ⟨i, u, v, h1, h2, h3⟩
        refine ⟨(u, v), List.mem_iff_getElem?.2 ⟨i, ?_⟩, decide_eq_true h3⟩
        rw [List.getElem?_zip_eq_some]
        exact ⟨h1, h2⟩
    constructor
    · rintro ⟨x, h1, h2⟩
      rcases hy : a.ypix with _ | ys
      · rw [hy] at h2; cases h2
      · rw [hy] at h2
        dsimp only at h2
        rw [bind_iff] at h2
        obtain ⟨y, h2, h3⟩ := h2
        refine ⟨ys, x, y, rfl, (floats_iff _ _ _).1 h1, (floats_iff _ _ _).1 h2, ?_⟩
        rw [← Except.ok.inj h3]
        exact List.filter_congr fun s _ => hany x y s
    · rintro ⟨ys, x, y, hy, h1, h2, rfl⟩
      refine ⟨x, (floats_iff _ _ _).2 h1, ?_⟩
      rw [hy]
      dsimp only
      rw [bind_iff]
      refine ⟨y, (floats_iff _ _ _).2 h2, ?_⟩
      exact congrArg Except.ok (List.filter_congr fun s _ => hany x y s)

/-- **C112** (finding) Lists of different lengths are accepted: the numbers left over are ignored. -/
theorem C112_left_over (parse : PyStr → Option ℝ) (a b : Args) (spots : List (Tip δ)) (xs xs' ys : PyStr) (x extra y : List ℝ)
    (ha : a.xpix = some xs ∧ a.ypix = some ys) (hb : b.xpix = some xs' ∧ b.ypix = some ys) (hx : Numbers parse xs x) (hy : Numbers parse ys y)
    (hx' : Numbers parse xs' (x ++ extra)) (hl : y.length ≤ x.length) : selectPix parse b spots = selectPix parse a spots := by
  have h1 : ∀ (c : Args) (u : PyStr) (l : List ℝ), c.xpix = some u → c.ypix = some ys → Numbers parse u l →
      selectPix parse c spots = .ok (spots.filter fun s => (l.zip y).any (near s)) := by
    intro c u l e1 e2 hu
    unfold selectPix
    rw [e1, e2]
    dsimp only
    rw [(floats_iff _ _ _).2 hu, (floats_iff _ _ _).2 hy]
    rfl
  rw [h1 a xs x ha.1 ha.2 hx, h1 b xs' (x ++ extra) hb.1 hb.2 hx']
  have : (x ++ extra).zip y = x.zip y := by
    have hz : ∀ (x y extra : List ℝ), y.length ≤ x.length → (x ++ extra).zip y = x.zip y := by
      intro x
      induction x with
      | nil =>
        intro y extra h
        have : y = [] := List.eq_nil_of_length_eq_zero (by simpa using h)
        subst this
        simp
      | cons c x ih =>
        intro y extra h
        rcases y with _ | ⟨d, y⟩
        · simp
        · rw [List.cons_append, List.zip_cons_cons, List.zip_cons_cons, ih y extra (by simpa using h)]
    exact hz x y extra hl
  rw [this]

/-! ## Knees -/

theorem median_const (l : List ℝ) (c : ℝ) (hl : l ≠ []) (h : ∀ x ∈ l, x = c) : Model.MatchPositioners.median l = c := by
  obtain ⟨s, hp, -, a, b, ha, hb, hm⟩ := Verif.Props.median_medianOf hl
  have h1 := h a (hp.subset (List.mem_of_getElem? ha))
  have h2 := h b (hp.subset (List.mem_of_getElem? hb))
  rw [hm, h1, h2]
  ring

/-- **C112** The knee is, in the image, 3 mm from the tip in the direction of the arm, if a pixel is as many mm as the geometric mean of two medians over the
spots: of the change of x for a step of one pixel in x, and of the change of y for a step in y. -/
theorem C112_knee (tx : Transfo) (spots : List (Tip δ)) (hne : spots ≠ []) (s : Tip δ) :
    (∃ mx my, MedianOf mx (spots.map fun s => (tx.fvc2fp (s.pix.1 + 1, s.pix.2)).1 - (tx.fvc2fp s.pix).1) ∧
      MedianOf my (spots.map fun s => (tx.fvc2fp (s.pix.1, s.pix.2 + 1)).2 - (tx.fvc2fp s.pix).2) ∧
      pixToMm tx spots ^ 2 = |mx * my|) ∧ 0 ≤ pixToMm tx spots ∧
    (0 < pixToMm tx spots → gap (knee (pixToMm tx spots) s) s.pix * pixToMm tx spots = 3 ∧
      (knee (pixToMm tx spots) s).1 - s.pix.1 = gap (knee (pixToMm tx spots) s) s.pix * Real.cos s.angle ∧
      (knee (pixToMm tx spots) s).2 - s.pix.2 = gap (knee (pixToMm tx spots) s) s.pix * Real.sin s.angle) := by
  refine ⟨⟨_, _, Verif.Props.median_medianOf (by simpa using hne), Verif.Props.median_medianOf (by simpa using hne), ?_⟩, ?_, ?_⟩
  · unfold pixToMm
    dsimp only
    rw [Real.sq_sqrt (mul_nonneg (abs_nonneg _) (abs_nonneg _)), abs_mul]
  · exact Real.sqrt_nonneg _
  · generalize pixToMm tx spots = k
    intro hk
    have hg : gap (knee k s) s.pix = 3 / k := by
      unfold gap knee
      dsimp only
      rw [show (s.pix.1 + 3 / k * Real.cos s.angle - s.pix.1) ^ 2 + (s.pix.2 + 3 / k * Real.sin s.angle - s.pix.2) ^ 2 =
        (3 / k) ^ 2 * (Real.cos s.angle ^ 2 + Real.sin s.angle ^ 2) by ring, Real.cos_sq_add_sin_sq, mul_one]
      exact Real.sqrt_sq (by positivity)
    rw [hg]
    refine ⟨by field_simp, ?_, ?_⟩
    · unfold knee; dsimp only; ring
    · unfold knee; dsimp only; ring

/-- A camera without distortion: `k` mm per pixel, turned by `t`. -/
noncomputable def camera (k t u v : ℝ) (p : ℝ × ℝ) : ℝ × ℝ :=
  (k * (Real.cos t * p.1 - Real.sin t * p.2) + u, k * (Real.sin t * p.1 + Real.cos t * p.2) + v)

/-- **C112** (finding) The distance between tip and knee on the focal plane is not 3 mm if the camera is turned by an angle `t` with respect to the
focal plane: it is 3 mm divided by the cosine of the angle, because the size of the pixel is taken from the change of x with x and of y with y only. For a
camera turned by a quarter the size is 0 and there is no result. -/
theorem C112_turned (tx : Transfo) (k t u v : ℝ) (hk : 0 < k) (htx : tx.fvc2fp = camera k t u v) (spots : List (Tip δ)) (hne : spots ≠ [])
    (s : Tip δ) :
    pixToMm tx spots = k * |Real.cos t| ∧
    (Real.cos t ≠ 0 → gap (tx.fvc2fp (knee (pixToMm tx spots) s)) (tx.fvc2fp s.pix) = 3 / |Real.cos t|) := by
  have h1 : pixToMm tx spots = k * |Real.cos t| := by
    unfold pixToMm
    dsimp only
    rw [median_const _ (k * Real.cos t) (by simpa using hne), median_const _ (k * Real.cos t) (by simpa using hne)]
    · rw [← abs_mul, ← sq, abs_of_nonneg (sq_nonneg _), Real.sqrt_sq_eq_abs, abs_mul, abs_of_pos hk]
    · intro x hx
      obtain ⟨q, -, rfl⟩ := List.mem_map.1 hx
      rw [htx]
      unfold camera
      ring
    · intro x hx
      obtain ⟨q, -, rfl⟩ := List.mem_map.1 hx
      rw [htx]
      unfold camera
      ring
  refine ⟨h1, fun hc => ?_⟩
  have hpos : 0 < k * |Real.cos t| := mul_pos hk (abs_pos.2 hc)
  rw [h1, htx]
  unfold gap camera knee
  dsimp only
  generalize hr : 3 / (k * |Real.cos t|) = r
  rw [show (k * (Real.cos t * (s.pix.1 + r * Real.cos s.angle) - Real.sin t * (s.pix.2 + r * Real.sin s.angle)) + u -
      (k * (Real.cos t * s.pix.1 - Real.sin t * s.pix.2) + u)) ^ 2 +
    (k * (Real.sin t * (s.pix.1 + r * Real.cos s.angle) + Real.cos t * (s.pix.2 + r * Real.sin s.angle)) + v -
      (k * (Real.sin t * s.pix.1 + Real.cos t * s.pix.2) + v)) ^ 2 =
    (k * r) ^ 2 * ((Real.cos t ^ 2 + Real.sin t ^ 2) * (Real.cos s.angle ^ 2 + Real.sin s.angle ^ 2)) by ring,
    Real.cos_sq_add_sin_sq, Real.cos_sq_add_sin_sq, mul_one, mul_one, Real.sqrt_sq (by rw [← hr]; positivity), ← hr]
  field_simp

/-! ## The table -/

/-- What is written for a spot and its device. -/
structure RowOf (al : Model.Ptl2fp.Dict) (r2z : ℝ → ℝ) (tx : Transfo) (k : ℝ) (s : Tip δ) (d : Dev μ) (o : Out δ μ) : Prop where
  tip : o.tip = s
  kneePix : o.kneePix = knee k s
  kneeFp : o.kneeFp = tx.fvc2fp o.kneePix
  metroFp : o.metroFp = d.fp
  metroPix : o.metroPix = tx.fp2fvc d.fp
  petal : o.petal = d.petal
  rest : o.rest = d.rest
  ptl : ∃ z, Model.Ptl2fp.fp2ptl al d.petal ![s.fp.1, s.fp.2, r2z (Real.sqrt (s.fp.1 ^ 2 + s.fp.2 ^ 2))] = .ok ![o.ptl.1, o.ptl.2, z]
  qs : o.qs = Model.Xy2qs.xy2qs o.ptl.1 o.ptl.2
  flags : o.flags = 4

theorem row_iff (al : Model.Ptl2fp.Dict) (r2z : ℝ → ℝ) (tx : Transfo) (k : ℝ) (s : Tip δ) (d : Dev μ) (o : Out δ μ) :
    row al r2z tx k s d = .ok o ↔ RowOf al r2z tx k s d o := by
  unfold row
  rw [bind_iff]
  constructor
  · rintro ⟨p, hp, h⟩
    obtain rfl := Except.ok.inj h
    refine ⟨rfl, rfl, rfl, rfl, rfl, rfl, rfl, ⟨p 2, ?_⟩, rfl, rfl⟩
    have e : p = ![p 0, p 1, p 2] := by
      funext i
      fin_cases i <;> rfl
    exact hp.trans (congrArg Except.ok e)
  · rintro ⟨h1, h2, h3, h4, h5, h6, h7, ⟨z, h8⟩, h9, h10⟩
    refine ⟨_, h8, ?_⟩
    obtain ⟨a1, a2, a3, a4, a5, a6, a7, ⟨b1, b2⟩, a9, a10⟩ := o
    dsimp only at h1 h2 h3 h4 h5 h6 h7 h9 h10
    subst h1 h2 h3 h4 h5 h6 h7 h9 h10
    rfl

/-- The fibres of the metrology. -/
def Fibres (metrology devs : List (Dev μ)) : Prop := devs = metrology.filter fun m => m.type = "POS".toList || m.type = "ETC".toList

theorem fibers_eq (metrology : List (Dev μ)) : Fibres metrology (fibers metrology) := by
  unfold Fibres fibers
  apply List.filter_congr
  intro m _
  rw [Bool.decide_or]

theorem device_iff {n m : ℕ} (r : (Fin n → Option ℕ) × (Fin n → WithTop ℝ)) (devs : Fin m → Dev μ) (i : Fin n) (d : Dev μ) :
    device r devs i = some d ↔ ∃ j : Fin m, r.1 i = some (j : ℕ) ∧ r.2 i < ((4 : ℝ) : WithTop ℝ) ∧ d = devs j := by
  unfold device
  rcases e : r.1 i with _ | j
  · simp
  · dsimp only
    by_cases h : j < m
    · rw [dif_pos h]
      by_cases h4 : r.2 i < ((4 : ℝ) : WithTop ℝ)
      · rw [if_pos h4]
        constructor
        · intro hd
          exact ⟨⟨j, h⟩, rfl, h4, (Option.some.inj hd).symm⟩
        · rintro ⟨j', h1, -, rfl⟩
          obtain rfl := Option.some.inj h1
          rfl
      · rw [if_neg h4]
        constructor
        · intro hd; cases hd
        · rintro ⟨-, -, h5, -⟩; exact absurd h5 h4
    · rw [dif_neg h]
      constructor
      · intro hd; cases hd
      · rintro ⟨j', h1, -⟩
        exact absurd j'.2 (by rw [← Option.some.inj h1]; exact h)

/-- The pairs of spots and devices, from a result of the matching. -/
theorem pairs_of {n m : ℕ} (r : (Fin n → Option ℕ) × (Fin n → WithTop ℝ)) (spots : Fin n → Tip δ) (devs : Fin m → Dev μ) (is : List (Fin n)) :
    ∃ idx : List (Fin n × Fin m), ((is.filterMap fun i => (device r devs i).map fun d => (spots i, d)) = idx.map fun p => (spots p.1, devs p.2)) ∧
      (idx.map Prod.fst).Sublist is ∧ ∀ (i : Fin n) (j : Fin m), (i, j) ∈ idx ↔ i ∈ is ∧ r.1 i = some (j : ℕ) ∧ r.2 i < ((4 : ℝ) : WithTop ℝ) := by
  induction is with
  | nil => exact ⟨[], rfl, by simp, by simp⟩
  | cons a is ih =>
    obtain ⟨idx, h1, h2, h3⟩ := ih
    rcases e : device r devs a with _ | d
    · refine ⟨idx, ?_, h2.cons _, ?_⟩
      · rw [List.filterMap_cons, e]
        exact h1
      · intro i j
        rw [h3, List.mem_cons]
        constructor
        · rintro ⟨g1, g2⟩; exact ⟨Or.inr g1, g2⟩
        · rintro ⟨g1 | g1, g2, g3⟩
          · subst g1
            have := (device_iff r devs i (devs j)).2 ⟨j, g2, g3, rfl⟩
            rw [e] at this
            cases this
          · exact ⟨g1, g2, g3⟩
    · obtain ⟨j, g1, g2, g3⟩ := (device_iff r devs a d).1 e
      refine ⟨(a, j) :: idx, ?_, h2.cons_cons _, ?_⟩
      · rw [List.filterMap_cons, e]
        dsimp only [Option.map_some]
        rw [h1, List.map_cons, g3]
      · intro i j'
        rw [List.mem_cons, h3, List.mem_cons, Prod.mk.injEq]
        constructor
        · rintro (⟨rfl, rfl⟩ | ⟨k1, k2⟩)
          · exact ⟨Or.inl rfl, g1, g2⟩
          · exact ⟨Or.inr k1, k2⟩
        · rintro ⟨rfl | k1, k2, k3⟩
          · left
            rw [g1] at k2
            exact ⟨rfl, Fin.ext (Option.some.inj k2).symm⟩
          · exact Or.inr ⟨k1, k2, k3⟩

/-- **C112** The table written has, in the order of the spots, one row for every pair of a spot and a fibre of the metrology, where: the fibre is the one
nearest to the knee and less than 4 mm from it; no fibre and no spot is in two rows; a spot left out has its nearest fibre 4 mm away or more, or that fibre is in
the row of a spot whose knee is at least as near. Everything about the fibre is copied from the metrology. The petal coordinates are those of
the position of the tip found before the fit of the transform. -/
theorem C112_table (parse : PyStr → Option ℝ) (refit : List (Tip δ) → Except PyErr Transfo) (al : Model.Ptl2fp.Dict) (r2z : ℝ → ℝ)
    {argsort : List (WithTop ℝ) → List ℕ} (hs : Sorts argsort) {nearest : (d : List (Dev μ)) → 0 < d.length → ℝ × ℝ → Fin d.length}
    (hn : ∀ (d : List (Dev μ)) (h : 0 < d.length), Nearest (nearest d h) fun j => (d.get j).fp)
    (a : Args) (spots : List (Tip δ)) (metrology : List (Dev μ)) (out : List (Out δ μ))
    (h : analyze parse refit al r2z argsort nearest a spots metrology = .ok out) :
    ∃ kept tx devs, selectPix parse a spots = .ok kept ∧ refit kept = .ok tx ∧ pixToMm tx kept ≠ 0 ∧ Fibres metrology devs ∧
      ∃ idx : List (Fin kept.length × Fin devs.length),
        List.Forall₂ (fun p o => RowOf al r2z tx (pixToMm tx kept) (kept.get p.1) (devs.get p.2) o) idx out ∧
        (idx.map Prod.fst).Pairwise (· < ·) ∧ (idx.map Prod.snd).Nodup ∧
        (∀ p ∈ idx, gap (tx.fvc2fp (knee (pixToMm tx kept) (kept.get p.1))) (devs.get p.2).fp < 4 ∧
          ∀ j, gap (tx.fvc2fp (knee (pixToMm tx kept) (kept.get p.1))) (devs.get p.2).fp ≤
            gap (tx.fvc2fp (knee (pixToMm tx kept) (kept.get p.1))) (devs.get j).fp) ∧
        (∀ i, i ∉ idx.map Prod.fst → 0 < devs.length → ∃ j,
          (∀ j', gap (tx.fvc2fp (knee (pixToMm tx kept) (kept.get i))) (devs.get j).fp ≤
            gap (tx.fvc2fp (knee (pixToMm tx kept) (kept.get i))) (devs.get j').fp) ∧
          (4 ≤ gap (tx.fvc2fp (knee (pixToMm tx kept) (kept.get i))) (devs.get j).fp ∨
            ∃ i0, (i0, j) ∈ idx ∧ gap (tx.fvc2fp (knee (pixToMm tx kept) (kept.get i0))) (devs.get j).fp ≤
              gap (tx.fvc2fp (knee (pixToMm tx kept) (kept.get i))) (devs.get j).fp)) := by
  unfold analyze at h
  rw [bind_iff] at h
  obtain ⟨kept, h1, h⟩ := h
  rw [bind_iff] at h
  obtain ⟨tx, h2, h⟩ := h
  dsimp only at h
  by_cases hk : pixToMm tx kept = 0
  · rw [if_pos hk] at h; cases h
  rw [if_neg hk] at h
  refine ⟨kept, tx, fibers metrology, h1, h2, hk, fibers_eq metrology, ?_⟩
  generalize hdev : fibers metrology = devs at *
  obtain ⟨r, hr⟩ : ∃ r, r = matchSame argsort (nearest devs) (fun i : Fin kept.length => tx.fvc2fp (knee (pixToMm tx kept) (kept.get i)))
    (fun j => (devs.get j).fp) true := ⟨_, rfl⟩
  rw [← hr] at h
  obtain ⟨idx, i1, i2, i3⟩ := pairs_of r kept.get devs.get (List.finRange kept.length)
  have h : List.mapM (fun p : Tip δ × Dev μ => row al r2z tx (pixToMm tx kept) p.1 p.2)
      ((List.finRange kept.length).filterMap fun i => (device r devs.get i).map fun d => (kept.get i, d)) = .ok out := h
  rw [i1, mapM_iff, List.forall₂_map_left_iff] at h
  have hmem : ∀ p ∈ idx, r.1 p.1 = some (p.2 : ℕ) ∧ r.2 p.1 < ((4 : ℝ) : WithTop ℝ) := fun p hp => ((i3 p.1 p.2).1 hp).2
  refine ⟨idx, h.imp fun p o ho => (row_iff _ _ _ _ _ _ _).1 ho, (List.pairwise_lt_finRange _).sublist i2, ?_, ?_, ?_⟩
  · by_cases hd : 0 < devs.length
    · obtain ⟨-, hinj, -⟩ := Verif.Props.C30_match_same hs (nearest devs) (fun i : Fin kept.length => tx.fvc2fp (knee (pixToMm tx kept) (kept.get i)))
        (fun j => (devs.get j).fp) hd (hn devs hd)
      rw [← hr] at hinj
      have hnd : (idx.map Prod.fst).Nodup := ((List.pairwise_lt_finRange _).sublist i2).imp fun hlt => ne_of_lt hlt
      have hnd' : idx.Nodup := List.Nodup.of_map _ hnd
      refine (List.nodup_map_iff_inj_on hnd').2 ?_
      intro p hp q hq e
      have e1 := (hmem p hp).1
      have e2 := (hmem q hq).1
      rw [← e] at e2
      exact Prod.ext (hinj _ _ _ e1 e2) e
    · have : idx = [] := by
        rcases idx with _ | ⟨p, t⟩
        · rfl
        · exact absurd (Nat.lt_of_le_of_lt (Nat.zero_le _) p.2.2) hd
      rw [this]
      simp
  · intro p hp
    have hd : 0 < devs.length := Nat.lt_of_le_of_lt (Nat.zero_le _) p.2.2
    obtain ⟨m1, -, -, -, m5⟩ := Verif.Props.C30_match_same hs (nearest devs) (fun i : Fin kept.length => tx.fvc2fp (knee (pixToMm tx kept) (kept.get i)))
      (fun j => (devs.get j).fp) hd (hn devs hd)
    rw [← hr] at m1 m5
    obtain ⟨e1, e2⟩ := hmem p hp
    obtain ⟨hj4, hnear⟩ := m1 _ _ e1
    obtain ⟨hj5, hdist⟩ := m5 _ _ e1
    rw [hdist] at e2
    exact ⟨WithTop.coe_lt_coe.1 e2, hnear⟩
  · intro i hi hd
    obtain ⟨m1, -, m3, -, m5⟩ := Verif.Props.C30_match_same hs (nearest devs) (fun i : Fin kept.length => tx.fvc2fp (knee (pixToMm tx kept) (kept.get i)))
      (fun j => (devs.get j).fp) hd (hn devs hd)
    rw [← hr] at m1 m3 m5
    rcases e : r.1 i with _ | j
    · obtain ⟨i0, j, hj, g1, -, g3, g4⟩ := m3 i e
      refine ⟨⟨j, hj⟩, g3, ?_⟩
      by_cases h4 : 4 ≤ gap (tx.fvc2fp (knee (pixToMm tx kept) (kept.get i))) (devs.get ⟨j, hj⟩).fp
      · exact Or.inl h4
      · refine Or.inr ⟨i0, ?_, g4⟩
        rw [i3]
        refine ⟨List.mem_finRange _, g1, ?_⟩
        obtain ⟨hj5, hdist⟩ := m5 _ _ g1
        rw [hdist]
        exact WithTop.coe_lt_coe.2 (lt_of_le_of_lt g4 (not_le.1 h4))
    · obtain ⟨hj, hnear⟩ := m1 _ _ e
      refine ⟨⟨j, hj⟩, hnear, Or.inl ?_⟩
      by_contra h4
      refine hi (List.mem_map.2 ⟨(i, ⟨j, hj⟩), ?_, rfl⟩)
      rw [i3]
      refine ⟨List.mem_finRange _, e, ?_⟩
      obtain ⟨hj5, hdist⟩ := m5 _ _ e
      rw [hdist]
      exact WithTop.coe_lt_coe.2 (not_le.1 h4)

/-- **C112** The script succeeds when the spots can be chosen, the fit succeeds, the size of a pixel is not 0 and the petals of all fibres have an alignment; a
pixel of size 0 is an error. -/
theorem C112_succeeds (parse : PyStr → Option ℝ) (refit : List (Tip δ) → Except PyErr Transfo) (al : Model.Ptl2fp.Dict) (r2z : ℝ → ℝ)
    (argsort : List (WithTop ℝ) → List ℕ) (nearest : (d : List (Dev μ)) → 0 < d.length → ℝ × ℝ → Fin d.length)
    (a : Args) (spots kept : List (Tip δ)) (tx : Transfo) (metrology : List (Dev μ)) (h1 : selectPix parse a spots = .ok kept) (h2 : refit kept = .ok tx) :
    (pixToMm tx kept = 0 → analyze parse refit al r2z argsort nearest a spots metrology = .error .valueError) ∧
    (pixToMm tx kept ≠ 0 → (∀ d ∈ metrology, d.type = "POS".toList ∨ d.type = "ETC".toList → al d.petal ≠ none) →
      ∃ out, analyze parse refit al r2z argsort nearest a spots metrology = .ok out) := by
  constructor
  · intro hk
    unfold analyze
    rw [h1]
    change (refit kept >>= _) = _
    rw [h2]
    change (if pixToMm tx kept = 0 then _ else _) = _
    rw [if_pos hk]
    rfl
  · intro hk hal
    unfold analyze
    rw [h1]
    change ∃ out, (refit kept >>= _) = _
    rw [h2]
    change ∃ out, (if pixToMm tx kept = 0 then _ else _) = _
    rw [if_neg hk]
    refine Verif.Props.FpMetrology.mapM_ok_of ?_
    intro p hp
    obtain ⟨i, -, hi⟩ := List.mem_filterMap.1 hp
    obtain ⟨d, hd, rfl⟩ := Option.map_eq_some_iff.1 hi
    obtain ⟨j, -, -, rfl⟩ := (device_iff _ _ _ _).1 hd
    have hm := List.mem_filter.1 (List.get_mem (fibers metrology) j)
    rcases e : al ((fibers metrology).get j).petal with _ | t
    · exact absurd e (hal _ hm.1 (of_decide_eq_true hm.2))
    · dsimp only
      unfold row Model.Ptl2fp.fp2ptl Model.Ptl2fp.lookup
      rw [e]
      exact ⟨_, rfl⟩

/-- A table with a row: the fibre 3 mm from the tip in the direction of the arm. -/
example {argsort : List (WithTop ℝ) → List ℕ} (hs : Sorts argsort) {nearest : (d : List (Dev Unit)) → 0 < d.length → ℝ × ℝ → Fin d.length}
    (hn : ∀ (d : List (Dev Unit)) (h : 0 < d.length), Nearest (nearest d h) fun j => (d.get j).fp) :
    ∃ o, analyze (fun _ => none) (fun _ => .ok ⟨id, id⟩) (fun _ => some ⟨0, 0, 1, 0, 0, 0⟩) (fun _ => 0) argsort nearest ⟨0, none, none⟩
      [(⟨(1, 2), (1, 2), 0, ()⟩ : Tip Unit)] [⟨"POS".toList, (4, 2), 3, ()⟩] = .ok [o] := by
  have hk : pixToMm (δ := Unit) ⟨id, id⟩ [⟨(1, 2), (1, 2), 0, ()⟩] = 1 := by
    have := (C112_turned (δ := Unit) ⟨id, id⟩ 1 0 0 0 one_pos (by funext p; simp [camera]) [⟨(1, 2), (1, 2), 0, ()⟩] (by simp) ⟨(1, 2), (1, 2), 0, ()⟩).1
    simpa using this
  obtain ⟨out, h⟩ := (C112_succeeds (δ := Unit) (fun _ => none) (fun _ => .ok ⟨id, id⟩) (fun _ => some ⟨0, 0, 1, 0, 0, 0⟩) (fun _ => 0) argsort nearest
    ⟨0, none, none⟩ [⟨(1, 2), (1, 2), 0, ()⟩] [⟨(1, 2), (1, 2), 0, ()⟩] ⟨id, id⟩ [⟨"POS".toList, (4, 2), 3, ()⟩] rfl rfl).2 (by rw [hk]; exact one_ne_zero)
    (by intro d _ _; simp)
  obtain ⟨kept, tx, devs, e1, e2, -, e3, idx, f1, f2, f3, f4, f5⟩ := C112_table _ _ _ _ hs hn _ _ _ _ h
  obtain rfl := Except.ok.inj e1
  obtain rfl := Except.ok.inj e2
  have e3 : devs = [⟨"POS".toList, (4, 2), 3, ()⟩] := by
    rw [e3]
    exact List.filter_cons_of_pos (by rw [decide_eq_true rfl, Bool.true_or])
  subst e3
  have h1 : idx.length = out.length := f1.length_eq
  have h2 : (idx.map Prod.fst).length ≤ 1 := by
    have hnd : (idx.map Prod.fst).Nodup := f2.imp fun hlt => ne_of_lt hlt
    simpa using hnd.length_le_card
  have h3 : idx ≠ [] := by
    rintro rfl
    obtain ⟨j, -, g | ⟨i0, g, -⟩⟩ := f5 (0 : Fin 1) (by simp) (by simp)
    · have hj : j = (0 : Fin 1) := Subsingleton.elim (α := Fin 1) _ _
      subst hj
      rw [hk] at g
      have : (4 : ℝ) ≤ 0 := by simpa [gap, knee, show (1 : ℝ) + 3 - 4 = 0 by norm_num] using g
      norm_num at this
    · simp at g
  rw [List.length_map] at h2
  obtain ⟨o, rfl⟩ : ∃ o, out = [o] := List.length_eq_one_iff.1 (by
    have := List.length_pos_iff.2 h3
    omega)
  exact ⟨o, h⟩

/-- **C112** (finding) The option `--minccf` has no effect. -/
theorem C112_minccf (parse : PyStr → Option ℝ) (refit : List (Tip δ) → Except PyErr Transfo) (al : Model.Ptl2fp.Dict) (r2z : ℝ → ℝ)
    (argsort : List (WithTop ℝ) → List ℕ) (nearest : (d : List (Dev μ)) → 0 < d.length → ℝ × ℝ → Fin d.length)
    (a : Args) (c : ℝ) (spots : List (Tip δ)) (metrology : List (Dev μ)) :
    analyze parse refit al r2z argsort nearest { a with minccf := c } spots metrology =
      analyze parse refit al r2z argsort nearest a spots metrology := rfl

/-- **C112** (finding) Q and S are those of the petal coordinates: for a petal that is turned by an angle `g` about the axis, Q of a row is that of the tip on the
focal plane minus this angle. -/
theorem C112_petal_angle (al : Model.Ptl2fp.Dict) (r2z : ℝ → ℝ) (tx : Transfo) (k g : ℝ) (s : Tip δ) (d : Dev μ) (o : Out δ μ)
    (hal : al d.petal = some ⟨0, 0, g, 0, 0, 0⟩) (h : RowOf al r2z tx k s d o) (hne : s.fp ≠ (0, 0)) :
    o.qs.2 = (Model.Xy2qs.xy2qs s.fp.1 s.fp.2).2 ∧
    Real.cos (o.qs.1 * Real.pi / 180) = Real.cos ((Model.Xy2qs.xy2qs s.fp.1 s.fp.2).1 * Real.pi / 180 - g) ∧
    Real.sin (o.qs.1 * Real.pi / 180) = Real.sin ((Model.Xy2qs.xy2qs s.fp.1 s.fp.2).1 * Real.pi / 180 - g) := by
  obtain ⟨z, hz⟩ := h.ptl
  have hp : o.ptl.1 = Real.cos g * s.fp.1 + Real.sin g * s.fp.2 ∧ o.ptl.2 = -Real.sin g * s.fp.1 + Real.cos g * s.fp.2 := by
    unfold Model.Ptl2fp.fp2ptl Model.Ptl2fp.lookup at hz
    rw [hal] at hz
    have hz := Except.ok.inj hz
    have h0 := congrFun hz 0
    have h1 := congrFun hz 1
    simp [Model.Ptl2fp.Alignment.R, Model.Ptl2fp.Alignment.T, Model.Ptl2fp.Rxyz, Model.Ptl2fp.Rz, Model.Ptl2fp.Ry, Model.Ptl2fp.Rx,
      Matrix.mulVec, dotProduct, Fin.sum_univ_three, Matrix.transpose_apply] at h0 h1
    constructor
    · linarith
    · linarith
  have hh : hypot o.ptl.1 o.ptl.2 = hypot s.fp.1 s.fp.2 := by
    unfold hypot
    rw [hp.1, hp.2]
    congr 1
    linear_combination (s.fp.1 ^ 2 + s.fp.2 ^ 2) * Real.sin_sq_add_cos_sq g
  have hpos : 0 < hypot s.fp.1 s.fp.2 := by
    unfold hypot
    refine Real.sqrt_pos.2 (lt_of_le_of_ne (by positivity) fun e => hne ?_)
    have e1 : s.fp.1 ^ 2 = 0 := by nlinarith [sq_nonneg s.fp.1, sq_nonneg s.fp.2]
    have e2 : s.fp.2 ^ 2 = 0 := by nlinarith [sq_nonneg s.fp.1, sq_nonneg s.fp.2]
    exact Prod.ext (pow_eq_zero_iff two_ne_zero |>.1 e1) (pow_eq_zero_iff two_ne_zero |>.1 e2)
  have c1 := Verif.Lemmas.Trig.cosd_arctan2d o.ptl.1 o.ptl.2
  have s1 := Verif.Lemmas.Trig.sind_arctan2d o.ptl.1 o.ptl.2
  have c2 := Verif.Lemmas.Trig.cosd_arctan2d s.fp.1 s.fp.2
  have s2 := Verif.Lemmas.Trig.sind_arctan2d s.fp.1 s.fp.2
  rw [hh] at c1 s1
  rw [h.qs]
  unfold Model.Xy2qs.xy2qs
  dsimp only
  rw [Real.cos_sub, Real.sin_sub, Verif.Lemmas.Sky.cosd_eq, Verif.Lemmas.Sky.sind_eq, Verif.Lemmas.Sky.cosd_eq, Verif.Lemmas.Sky.sind_eq, hh]
  refine ⟨rfl, mul_left_cancel₀ hpos.ne' ?_, mul_left_cancel₀ hpos.ne' ?_⟩
  · rw [c1, hp.1]
    linear_combination -Real.cos g * c2 - Real.sin g * s2
  · rw [s1, hp.2]
    linear_combination Real.sin g * c2 - Real.cos g * s2

/-- A case of `C112_petal_angle`: the petal of the test is turned and the tip is off the axis. -/
example : ∃ (o : Out Unit Unit), RowOf (fun _ => some ⟨0, 0, 1, 0, 0, 0⟩) (fun _ => 0) ⟨id, id⟩ 1 ⟨(1, 2), (3, 4), 0, ()⟩ ⟨"POS".toList, (0, 0), 3, ()⟩ o := by
  obtain ⟨o, ho⟩ : ∃ o : Out Unit Unit, row (fun _ => some ⟨0, 0, 1, 0, 0, 0⟩) (fun _ => 0) ⟨id, id⟩ 1 ⟨(1, 2), (3, 4), 0, ()⟩
      ⟨"POS".toList, (0, 0), 3, ()⟩ = .ok o := ⟨_, rfl⟩
  exact ⟨o, (row_iff _ _ _ _ _ _ _).1 ho⟩

end Verif.Props.Knees
