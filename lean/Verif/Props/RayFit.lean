import Verif.Model.RayFit
import Verif.Props.Raytracefit
import Verif.Props.ZhaoBurge
import Verif.Props.RayRun
import Verif.Lemmas.Sort

/-!
# C98: the fit of the ray traced table
-/

namespace Verif.Props.RayFit
open Verif.Py Verif.Spec Verif.Lemmas Verif.Lemmas.Fvc2fp Verif.Lemmas.LinAlg Verif.Lemmas.ZhaoBurge Classical
open Verif.Model.ZhaoBurge Verif.Model.Fvc2fp Verif.Model.Raytracefit Verif.Model.RayFit

/-! ## Specification -/

/-- Knots at which `interp1d(x, y, 'cubic')` works: four or more, all different (in ascending order). -/
def Knots (l : List (ℝ × ℝ)) : Prop := 4 ≤ l.length ∧ l.Pairwise fun a b => a.1 < b.1

/-- `x` is between two knots. -/
def Within (l : List (ℝ × ℝ)) (x : ℝ) : Prop := (∃ a ∈ l, a.1 ≤ x) ∧ ∃ b ∈ l, x ≤ b.1

/-- What is used of `interp1d(x, y, 'cubic')`: it goes through the knots, reproduces constants, and is not
defined outside of the knots, for fewer than four knots, and for knots that are not different. -/
structure Interp1d (itp : List (ℝ × ℝ) → ℝ → Except PyErr ℝ) : Prop where
  total : ∀ l x, Knots l → Within l x → ∃ y, itp l x = .ok y
  knot : ∀ l x y, Knots l → (x, y) ∈ l → itp l x = .ok y
  const : ∀ l x c, Knots l → Within l x → (∀ p ∈ l, p.2 = c) → itp l x = .ok c
  outside : ∀ l x, Knots l → ¬ Within l x → itp l x = .error .valueError
  bad : ∀ l x, ¬ Knots l → itp l x = .error .valueError

/-- `np.argsort`: ascending order of the differences of the angles. -/
def Sorts (sort : List Config → List Config) : Prop :=
  ∀ l, (sort l).Perm l ∧ (sort l).Pairwise fun a b => dadc a ≤ dadc b

/-- The settings can be interpolated: four or more, with different differences of the angles. -/
def Usable (cfgs : List Config) : Prop := 4 ≤ cfgs.length ∧ (cfgs.map dadc).Nodup

/-- Sum of the squared distances in the focal plane. -/
noncomputable def misfit (a b : List (ℝ × ℝ)) : ℝ :=
  ((a.zip b).map fun e => (e.1.1 - e.2.1) ^ 2 + (e.1.2 - e.2.2) ^ 2).sum

/-- The polynomial distortion with coefficients `c`, from the tangent plane to the focal plane. -/
noncomputable def distorted (c : Fin polids.length → ℝ) (p : ℝ × ℝ) : ℝ × ℝ :=
  match getZhaoBurgeXY polids (List.ofFn c) (reduceTan p).1 (reduceTan p).2 with
  | .ok d => expandFp (reduceTan p + d)
  | .error _ => 0

theorem polids_known : ∀ i ∈ polids, i < 33 := by decide

/-! ## Contracts can be met -/

example : ∃ itp, Interp1d itp := by
  refine ⟨fun l x => if Knots l ∧ Within l x then
    .ok (if h : ∃ y, (x, y) ∈ l then h.choose else (l.headD (0, 0)).2) else .error .valueError,
    ?_, ?_, ?_, ?_, ?_⟩
  · intro l x h1 h2
    exact ⟨_, if_pos ⟨h1, h2⟩⟩
  · intro l x y h1 h2
    have hw : Within l x := ⟨⟨_, h2, le_refl _⟩, ⟨_, h2, le_refl _⟩⟩
    have hex : ∃ y, (x, y) ∈ l := ⟨y, h2⟩
    rw [if_pos ⟨h1, hw⟩, dif_pos hex]
    congr 1
    by_contra hne
    have hp := h1.2
    have := hex.choose_spec
    have inj : ∀ a ∈ l, ∀ b ∈ l, a.1 = b.1 → a = b := by
      intro a ha b hb hab
      by_contra hc
      rcases (List.pairwise_iff_getElem.1 hp) with h
      obtain ⟨i, hi, rfl⟩ := List.getElem_of_mem ha
      obtain ⟨j, hj, rfl⟩ := List.getElem_of_mem hb
      rcases lt_trichotomy i j with hij | hij | hij
      · exact absurd hab (h i j hi hj hij).ne
      · subst hij; exact hc rfl
      · exact absurd hab (h j i hj hi hij).ne'
    exact hne (congrArg Prod.snd (inj _ this _ h2 rfl))
  · intro l x c h1 h2 hc
    rw [if_pos ⟨h1, h2⟩]
    congr 1
    split_ifs with h
    · exact hc _ h.choose_spec
    · cases l with
      | nil => exact absurd h1.1 (by simp)
      | cons a t => exact hc a List.mem_cons_self
  · intro l x h1 h2
    exact if_neg fun h => h2 h.2
  · intro l x h1
    exact if_neg fun h => h1 h.1

example : Sorts (pySort dadc) := fun _ => ⟨perm_pySort _ _, sorted_pySort _ _⟩

/-! ## The settings -/

theorem unique_spec (l : List ℝ) : (unique l).Pairwise (· < ·) ∧ ∀ x, x ∈ unique l ↔ x ∈ l := by
  unfold unique
  have h1 := sorted_pySort id l.dedup
  have h2 : (pySort id l.dedup).Nodup := (perm_pySort id l.dedup).nodup_iff.2 (List.nodup_dedup l)
  constructor
  · have := h1.and h2
    exact this.imp fun h => lt_of_le_of_ne h.1 h.2
  · intro x
    rw [mem_pySort, List.mem_dedup]

/-- The settings of the table are told apart by the key. -/
def Apart (rows : List Row) : Prop :=
  ∀ r ∈ rows, ∀ s ∈ rows, key r = key s → r.adc1 = s.adc1 ∧ r.adc2 = s.adc2

/-- What is stored for the rows `sel` of one setting: their least squares fit. -/
def Fitted (sel : List Row) (c : Config) : Prop :=
  ∃ z, fitZhaoBurge polids (sel.map fitPt) = .ok z ∧ c.zb = List.ofFn z ∧ c.scale = 1 ∧ c.rotation = 0 ∧
    c.offsetX = 0 ∧ c.offsetY = 0

/-- **C98** (settings). If the settings can be told apart by the key, `fit` stores one entry for each setting of
the corrector in the table, in ascending order of the key, each fitted to all of its rows and to no others. -/
theorem C98_settings (rows : List Row) (cfgs : List Config) (ha : Apart rows) (h : fit rows = .ok cfgs) :
    (cfgs.Pairwise fun a b => a.adc1 + 1000 * a.adc2 < b.adc1 + 1000 * b.adc2) ∧
    (∀ a1 a2, (∃ c ∈ cfgs, c.adc1 = a1 ∧ c.adc2 = a2) ↔ ∃ r ∈ rows, r.adc1 = a1 ∧ r.adc2 = a2) ∧
    ∀ c ∈ cfgs, Fitted (rows.filter fun r => decide (r.adc1 = c.adc1 ∧ r.adc2 = c.adc2)) c := by
  unfold fit at h
  split_ifs at h with hne
  rw [RayRun.mapM_iff] at h
  obtain ⟨hu, hm⟩ := unique_spec (rows.map key)
  have one : ∀ v c, fitConfig rows v = .ok c → key ⟨c.adc1, c.adc2, (0, 0), (0, 0)⟩ = v ∧
      (∃ r ∈ rows, r.adc1 = c.adc1 ∧ r.adc2 = c.adc2) ∧
      Fitted (rows.filter fun r => decide (r.adc1 = c.adc1 ∧ r.adc2 = c.adc2)) c := by
    intro v c hc
    unfold fitConfig at hc
    dsimp only at hc
    split at hc
    · cases hc
    · rename_i r t hs
      have hr : r ∈ rows.filter fun r => decide (key r = v) := by rw [hs]; exact List.mem_cons_self
      obtain ⟨hr1, hr2⟩ := List.mem_filter.1 hr
      rw [decide_eq_true_eq] at hr2
      obtain ⟨z, hz, hc⟩ := (RayRun.bind_iff _ _ _).1 hc
      obtain rfl := Except.ok.inj hc
      have e : (rows.filter fun s => decide (s.adc1 = r.adc1 ∧ s.adc2 = r.adc2)) =
          rows.filter fun r => decide (key r = v) := by
        apply List.filter_congr
        intro s hs
        rw [decide_eq_decide]
        constructor
        · rintro ⟨h1, h2⟩
          rw [← hr2]
          unfold key
          rw [h1, h2]
        · intro h
          exact ha s hs r hr1 (h.trans hr2.symm)
      refine ⟨hr2, ⟨r, hr1, rfl, rfl⟩, z, ?_, rfl, rfl, rfl, rfl, rfl⟩
      dsimp only
      rw [e]
      exact hz
  refine ⟨?_, ?_, ?_⟩
  · have key_eq : cfgs.map (fun c => c.adc1 + 1000 * c.adc2) = unique (rows.map key) := by
      clear hu hm
      generalize unique (rows.map key) = vs at h
      induction h with
      | nil => rfl
      | cons h1 _ ih =>
        rw [List.map_cons, ih]
        congr 1
        exact (one _ _ h1).1
    rw [← key_eq, List.pairwise_map] at hu
    exact hu
  · intro a1 a2
    constructor
    · rintro ⟨c, hc, rfl, rfl⟩
      obtain ⟨v, hv, hvc⟩ := RayAdc.mem_right h c hc
      exact (one v c hvc).2.1
    · rintro ⟨r, hr, rfl, rfl⟩
      have hv : key r ∈ unique (rows.map key) := (hm _).2 (List.mem_map_of_mem hr)
      obtain ⟨c, hc, hvc⟩ := RayAdc.mem_right h.flip (key r) hv
      obtain ⟨hk, ⟨s, hs, h1, h2⟩, _⟩ := one _ _ hvc
      have : key s = key r := by
        rw [← hk]
        unfold key
        rw [h1, h2]
      obtain ⟨e1, e2⟩ := ha s hs r hr this
      exact ⟨c, hc, by rw [← h1, e1], by rw [← h2, e2]⟩
  · intro c hc
    obtain ⟨v, hv, hvc⟩ := RayAdc.mem_right h c hc
    exact (one v c hvc).2.2

/-- **C98** (key). Settings are told apart if the second angles are whole numbers of degrees and the first
ones less than 1000 degrees apart. -/
theorem C98_key (rows : List Row) (hi : ∀ r ∈ rows, ∃ k : ℤ, r.adc2 = k)
    (hd : ∀ r ∈ rows, ∀ s ∈ rows, |r.adc1 - s.adc1| < 1000) : Apart rows := by
  intro r hr s hs h
  unfold key at h
  obtain ⟨k, hk⟩ := hi r hr
  obtain ⟨l, hl⟩ := hi s hs
  have h1 : r.adc1 - s.adc1 = 1000 * ((l - k : ℤ) : ℝ) := by push_cast; rw [← hk, ← hl]; linarith
  have h2 := hd r hr s hs
  rw [h1, abs_mul, abs_of_pos (by norm_num : (0 : ℝ) < 1000)] at h2
  have h3 : |((l - k : ℤ) : ℝ)| < 1 := by linarith
  have h4 : l - k = 0 := by
    rw [← Int.cast_abs] at h3
    have : |l - k| < 1 := by exact_mod_cast h3
    exact Int.abs_lt_one_iff.1 this
  rw [h4] at h1
  have h5 : r.adc1 = s.adc1 := by
    push_cast at h1
    linarith
  exact ⟨h5, by linarith⟩

/-- **C98** (finding). Otherwise the rows of two settings can be fitted as if they were one: the settings
(0, 0) and (100, -0.1) have the same key, and only one entry is stored for them, fitted to the rows of both. -/
theorem C98_collision (rows : List Row)
    (hr : ∀ r ∈ rows, (r.adc1 = 0 ∧ r.adc2 = 0) ∨ (r.adc1 = 100 ∧ r.adc2 = -0.1))
    (cfgs : List Config) (h : fit rows = .ok cfgs) : ∃ c, cfgs = [c] ∧ Fitted rows c := by
  have hk : ∀ r ∈ rows, key r = 0 := by
    intro r h
    unfold key
    rcases hr r h with h | h <;> rw [h.1, h.2] <;> norm_num
  unfold fit at h
  split_ifs at h with hne
  have hu : unique (rows.map key) = [0] := by
    obtain ⟨h1, h2⟩ := unique_spec (rows.map key)
    have h3 : ∀ x ∈ unique (rows.map key), x = 0 := by
      intro x hx
      obtain ⟨r, hr, rfl⟩ := List.mem_map.1 ((h2 x).1 hx)
      exact hk r hr
    generalize unique (rows.map key) = u at h1 h2 h3
    match u, h1, h2, h3 with
    | [], _, h2, _ =>
      obtain ⟨r, t, rfl⟩ := List.exists_cons_of_ne_nil hne
      cases (h2 (key r)).2 (by simp)
    | [a], _, _, h3 => rw [h3 a (by simp)]
    | a :: b :: t, h1, _, h3 =>
      have := List.rel_of_pairwise_cons h1 (List.mem_cons_self (a := b) (l := t))
      rw [h3 a (by simp), h3 b (by simp)] at this
      exact absurd this (lt_irrefl _)
  rw [hu, RayRun.mapM_iff] at h
  cases h with
  | cons h1 h2 =>
  cases h2
  rename_i c
  refine ⟨c, rfl, ?_⟩
  unfold fitConfig at h1
  dsimp only at h1
  have hf : (rows.filter fun q => decide (key q = 0)) = rows :=
    List.filter_eq_self.2 fun r hr => decide_eq_true (hk r hr)
  rw [hf] at h1
  obtain ⟨r, t, rfl⟩ := List.exists_cons_of_ne_nil hne
  obtain ⟨z, hz, hc⟩ := (RayRun.bind_iff _ _ _).1 h1
  obtain rfl := Except.ok.inj hc
  exact ⟨z, hz, rfl, rfl, rfl, rfl, rfl⟩

/-! ## Interpolation -/

theorem knots_iff (sort : List Config → List Config) (hs : Sorts sort) (cfgs : List Config) (f : Config → ℝ) :
    Knots ((sort cfgs).map fun c => (dadc c, f c)) ↔ Usable cfgs := by
  obtain ⟨hp, ho⟩ := hs cfgs
  unfold Knots Usable
  rw [List.length_map, hp.length_eq]
  refine and_congr_right fun _ => ?_
  rw [List.pairwise_map]
  have hn : ((sort cfgs).map dadc).Nodup ↔ (cfgs.map dadc).Nodup := (hp.map dadc).nodup_iff
  rw [← hn, List.Nodup, List.pairwise_map]
  constructor
  · intro h
    exact h.imp fun h => h.ne
  · intro h
    exact (ho.and h).imp fun h => lt_of_le_of_ne h.1 h.2

theorem within_iff (sort : List Config → List Config) (hs : Sorts sort) (cfgs : List Config) (f : Config → ℝ)
    (d : ℝ) : Within ((sort cfgs).map fun c => (dadc c, f c)) d ↔
      (∃ c ∈ cfgs, dadc c ≤ d) ∧ ∃ c ∈ cfgs, d ≤ dadc c := by
  obtain ⟨hp, _⟩ := hs cfgs
  unfold Within
  constructor
  · rintro ⟨⟨a, ha, h1⟩, ⟨b, hb, h2⟩⟩
    obtain ⟨c, hc, rfl⟩ := List.mem_map.1 ha
    obtain ⟨c', hc', rfl⟩ := List.mem_map.1 hb
    exact ⟨⟨c, hp.mem_iff.1 hc, h1⟩, ⟨c', hp.mem_iff.1 hc', h2⟩⟩
  · rintro ⟨⟨c, hc, h1⟩, ⟨c', hc', h2⟩⟩
    exact ⟨⟨_, List.mem_map_of_mem (hp.mem_iff.2 hc), h1⟩, ⟨_, List.mem_map_of_mem (hp.mem_iff.2 hc'), h2⟩⟩

/-- All settings have scale 1, no rotation and no offset, as stored by `fit`. -/
def Plain (cfgs : List Config) : Prop :=
  ∀ c ∈ cfgs, c.scale = 1 ∧ c.rotation = 0 ∧ c.offsetX = 0 ∧ c.offsetY = 0 ∧ c.zb.length = polids.length

theorem fit_plain (rows : List Row) (cfgs : List Config) (h : fit rows = .ok cfgs) : Plain cfgs := by
  unfold fit at h
  split_ifs at h with hne
  rw [RayRun.mapM_iff] at h
  intro c hc
  obtain ⟨v, _, hv⟩ := RayAdc.mem_right h c hc
  unfold fitConfig at hv
  dsimp only at hv
  split at hv
  · cases hv
  · obtain ⟨z, hz, hc⟩ := (RayRun.bind_iff _ _ _).1 hv
    obtain rfl := Except.ok.inj hc
    exact ⟨rfl, rfl, rfl, rfl, List.length_ofFn⟩

/-- The interpolation of everything that `fit` stores. -/
theorem interpolate_ok (itp : List (ℝ × ℝ) → ℝ → Except PyErr ℝ) (hi : Interp1d itp)
    (sort : List Config → List Config) (hs : Sorts sort) (cfgs : List Config) (hp : Plain cfgs)
    (hu : Usable cfgs) (d : ℝ) (h1 : ∃ c ∈ cfgs, dadc c ≤ d) (h2 : ∃ c ∈ cfgs, d ≤ dadc c) :
    ∃ z : Fin polids.length → ℝ, interpolate itp sort cfgs d = .ok ⟨1, 0, 0, 0, List.ofFn z⟩ := by
  have hk : ∀ f : Config → ℝ, Knots ((sort cfgs).map fun c => (dadc c, f c)) := fun f => (knots_iff sort hs cfgs f).2 hu
  have hw : ∀ f : Config → ℝ, Within ((sort cfgs).map fun c => (dadc c, f c)) d :=
    fun f => (within_iff sort hs cfgs f d).2 ⟨h1, h2⟩
  have hc : ∀ (f : Config → ℝ) a, (∀ c ∈ cfgs, f c = a) → column itp (sort cfgs) d f = .ok a := by
    intro f a hf
    apply hi.const _ _ _ (hk f) (hw f)
    intro p hp
    obtain ⟨c, hc, rfl⟩ := List.mem_map.1 hp
    exact hf c ((hs cfgs).1.mem_iff.1 hc)
  have ht : ∀ i : ℕ, ∃ y, column itp (sort cfgs) d (fun c => c.zb.getD i 0) = .ok y :=
    fun i => hi.total _ _ (hk _) (hw _)
  choose y hy using ht
  refine ⟨fun i => y i, ?_⟩
  unfold interpolate
  dsimp only
  rw [hc _ 1 fun c h => (hp c h).1, hc _ 0 fun c h => (hp c h).2.1, hc _ 0 fun c h => (hp c h).2.2.1,
    hc _ 0 fun c h => (hp c h).2.2.2.1]
  have : (List.range polids.length).mapM (fun i => column itp (sort cfgs) d fun c => c.zb.getD i 0) =
      .ok (List.ofFn fun i : Fin polids.length => y i) := by
    rw [RayRun.mapM_iff]
    have e : (List.ofFn fun i : Fin polids.length => y i) = (List.range polids.length).map y := by
      rw [List.ofFn_eq_map, ← List.map_coe_finRange_eq_range, List.map_map]
      rfl
    rw [e, List.forall₂_map_right_iff, List.forall₂_same]
    intro i _
    exact hy i
  rw [this]
  rfl

/-- At a setting of the table the interpolation gives what was stored for it. -/
theorem interpolate_knot (itp : List (ℝ × ℝ) → ℝ → Except PyErr ℝ) (hi : Interp1d itp)
    (sort : List Config → List Config) (hs : Sorts sort) (cfgs : List Config) (hp : Plain cfgs)
    (hu : Usable cfgs) (c : Config) (hc : c ∈ cfgs) :
    interpolate itp sort cfgs (dadc c) = .ok ⟨1, 0, 0, 0, c.zb⟩ := by
  have hk : ∀ f : Config → ℝ, Knots ((sort cfgs).map fun c => (dadc c, f c)) := fun f => (knots_iff sort hs cfgs f).2 hu
  have hcol : ∀ f : Config → ℝ, column itp (sort cfgs) (dadc c) f = .ok (f c) := fun f =>
    hi.knot _ _ _ (hk f) (List.mem_map_of_mem ((hs cfgs).1.mem_iff.2 hc))
  obtain ⟨p1, p2, p3, p4, p5⟩ := hp c hc
  unfold interpolate
  dsimp only
  rw [hcol, hcol, hcol, hcol, p1, p2, p3, p4]
  have : (List.range polids.length).mapM (fun i => column itp (sort cfgs) (dadc c) fun c => c.zb.getD i 0) =
      .ok c.zb := by
    rw [RayRun.mapM_iff]
    have e : c.zb = (List.range polids.length).map fun i => c.zb.getD i 0 := by
      apply List.ext_getElem
      · rw [List.length_map, List.length_range, p5]
      · intro i h1 h2
        rw [List.getElem_map, List.getElem_range, List.getD_eq_getElem _ _ h1]
    conv_rhs => rw [e]
    rw [List.forall₂_map_right_iff, List.forall₂_same]
    intro i _
    exact hcol _
  rw [this]
  rfl

theorem distorted_ok (z : Fin polids.length → ℝ) :
    ∃ D : ℝ × ℝ → ℝ × ℝ, (∀ x y, getZhaoBurgeXY polids (List.ofFn z) x y = .ok (D (x, y))) ∧
      ∀ p, distorted z p = expandFp (reduceTan p + D (reduceTan p)) := by
  obtain ⟨D, hD⟩ : ∃ D : ℝ × ℝ → ℝ × ℝ, ∀ x y, getZhaoBurgeXY polids (List.ofFn z) x y = .ok (D (x, y)) :=
    ⟨fun q => (pred (fitDesign polids) z (⟨q.1, q.2, 0, 0⟩, false),
      pred (fitDesign polids) z (⟨q.1, q.2, 0, 0⟩, true)), fun x y =>
    Verif.Props.xy_pred polids polids_known z ⟨x, y, 0, 0⟩⟩
  refine ⟨D, hD, fun p => ?_⟩
  unfold distorted
  rw [hD]

/-- **C98** (range). After the fit of a table with four or more settings of different differences, the
transformation is defined for all points at every difference (wrapped into [0, 360)) between the least and the
greatest one of the table, and is a `ValueError` at all others. -/
theorem C98_range (itp : List (ℝ × ℝ) → ℝ → Except PyErr ℝ) (hi : Interp1d itp)
    (sort : List Config → List Config) (hs : Sorts sort) (rows : List Row) (cfgs : List Config)
    (hf : fit rows = .ok cfgs) (hu : Usable cfgs) (pts : List (ℝ × ℝ)) (a1 a2 : ℝ) :
    ((∃ c ∈ cfgs, dadc c ≤ deltaAnglesAdc a1 a2) ∧ (∃ c ∈ cfgs, deltaAnglesAdc a1 a2 ≤ dadc c) →
      (∃ out, (model itp sort cfgs).tan2fp pts a1 a2 = .ok out) ∧
      (pts ≠ [] → ∃ out, (model itp sort cfgs).fp2tan pts a1 a2 = .ok out)) ∧
    (¬ ((∃ c ∈ cfgs, dadc c ≤ deltaAnglesAdc a1 a2) ∧ (∃ c ∈ cfgs, deltaAnglesAdc a1 a2 ≤ dadc c)) →
      (model itp sort cfgs).tan2fp pts a1 a2 = .error .valueError ∧
      (model itp sort cfgs).fp2tan pts a1 a2 = .error .valueError) := by
  have hp := fit_plain rows cfgs hf
  constructor
  · rintro ⟨h1, h2⟩
    obtain ⟨z, hz⟩ := interpolate_ok itp hi sort hs cfgs hp hu _ h1 h2
    obtain ⟨D, hD, _⟩ := distorted_ok z
    have hz' : (model itp sort cfgs).interp (deltaAnglesAdc a1 a2) = .ok ⟨1, 0, 0, 0, List.ofFn z⟩ := hz
    constructor
    · rw [Verif.Props.tan2fp_core _ _ _ _ _ hz', fvc2fp_eq _ hD]
      exact ⟨_, rfl⟩
    · intro hne
      obtain ⟨j, _, he, _⟩ := fp2fvc_eq (Verif.Props.core (model itp sort cfgs) ⟨1, 0, 0, 0, List.ofFn z⟩) hD
        (pts := pts.map (Verif.Props.turn (-averageAnglesAdc a1 a2))) (by simpa using hne)
      rw [Verif.Props.fp2tan_core _ _ _ _ _ hz', he]
      exact ⟨_, rfl⟩
  · intro h
    have : (model itp sort cfgs).interp (deltaAnglesAdc a1 a2) = .error .valueError := by
      show interpolate itp sort cfgs _ = _
      unfold interpolate
      dsimp only
      have : column itp (sort cfgs) (deltaAnglesAdc a1 a2) Config.scale = .error .valueError :=
        hi.outside _ _ ((knots_iff sort hs cfgs _).2 hu) fun hw => h ((within_iff sort hs cfgs _ _).1 hw)
      rw [this]
      rfl
    constructor
    · unfold RayTraceFit.tan2fp RayTraceFit.interpolateCoeffs
      rw [this]
      rfl
    · unfold RayTraceFit.fp2tan RayTraceFit.interpolateCoeffs
      rw [this]
      rfl

/-- **C98** (finding). With fewer than four settings, or two with the same difference of the angles,
the fit succeeds but the transformation is a `ValueError` everywhere. -/
theorem C98_unusable (itp : List (ℝ × ℝ) → ℝ → Except PyErr ℝ) (hi : Interp1d itp)
    (sort : List Config → List Config) (hs : Sorts sort) (cfgs : List Config) (hu : ¬ Usable cfgs)
    (pts : List (ℝ × ℝ)) (a1 a2 : ℝ) :
    (model itp sort cfgs).tan2fp pts a1 a2 = .error .valueError ∧
    (model itp sort cfgs).fp2tan pts a1 a2 = .error .valueError := by
  have : (model itp sort cfgs).interp (deltaAnglesAdc a1 a2) = .error .valueError := by
    show interpolate itp sort cfgs _ = _
    unfold interpolate
    dsimp only
    have : column itp (sort cfgs) (deltaAnglesAdc a1 a2) Config.scale = .error .valueError :=
      hi.bad _ _ fun hk => hu ((knots_iff sort hs cfgs _).1 hk)
    rw [this]
    rfl
  constructor
  · unfold RayTraceFit.tan2fp RayTraceFit.interpolateCoeffs
    rw [this]
    rfl
  · unfold RayTraceFit.fp2tan RayTraceFit.interpolateCoeffs
    rw [this]
    rfl

/-! ## When the fit succeeds -/

/-- The fifteen fields as polynomials. -/
theorem expand (c0 c1 c2 c3 c4 c5 c6 c7 c8 c9 c10 c11 c12 c13 c14 x y : ℝ) : getZhaoBurgeXY polids
    [c0, c1, c2, c3, c4, c5, c6, c7, c8, c9, c10, c11, c12, c13, c14] x y = .ok
    (c0 + rh * √4 * (c2 * x + c3 * y + c4 * x + c11 * y) + √6 / 2 * (c5 * (2 * x * y) +
      c6 * (3 * x ^ 2 + y ^ 2 - 1) + c12 * (x ^ 2 + 3 * y ^ 2 - 1) + c13 * (2 * x * y)) +
      rh * √8 * (c7 * x + c14 * y) * (3 * (x ^ 2 + y ^ 2) - 2) + √10 / 2 * (c8 * (6 * (x ^ 2 + y ^ 2) ^ 2 -
        6 * (x ^ 2 + y ^ 2) + 1 + (4 * (x ^ 2 + y ^ 2) - 3) * (x ^ 2 - y ^ 2)) +
        c9 * (2 * (4 * (x ^ 2 + y ^ 2) - 3) * x * y)) +
      rh * √12 * c10 * x * (10 * (x ^ 2 + y ^ 2) ^ 2 - 12 * (x ^ 2 + y ^ 2) + 3),
    c1 + rh * √4 * (c2 * y + c3 * x - c4 * y - c11 * x) + √6 / 2 * (c5 * (x ^ 2 + 3 * y ^ 2 - 1) +
      c6 * (2 * x * y) - c12 * (2 * x * y) - c13 * (3 * x ^ 2 + y ^ 2 - 1)) +
      rh * √8 * (c7 * y - c14 * x) * (3 * (x ^ 2 + y ^ 2) - 2) +
      √10 / 2 * (c8 * (2 * (4 * (x ^ 2 + y ^ 2) - 3) * x * y) + c9 * (6 * (x ^ 2 + y ^ 2) ^ 2 -
        6 * (x ^ 2 + y ^ 2) + 1 - (4 * (x ^ 2 + y ^ 2) - 3) * (x ^ 2 - y ^ 2))) +
      rh * √12 * c10 * y * (10 * (x ^ 2 + y ^ 2) ^ 2 - 12 * (x ^ 2 + y ^ 2) + 3)) := by
  have h3 : rh * √3 = √6 / 2 := by
    unfold rh
    rw [← Real.sqrt_mul (by norm_num), eq_div_iff (by norm_num), show (2 : ℝ) = √4 by
      rw [show (4 : ℝ) = 2 ^ 2 by norm_num, Real.sqrt_sq (by norm_num)], ← Real.sqrt_mul (by norm_num)]
    norm_num
  have h5 : rh * √5 = √10 / 2 := by
    unfold rh
    rw [← Real.sqrt_mul (by norm_num), eq_div_iff (by norm_num), show (2 : ℝ) = √4 by
      rw [show (4 : ℝ) = 2 ^ 2 by norm_num, Real.sqrt_sq (by norm_num)], ← Real.sqrt_mul (by norm_num)]
    norm_num
  rw [show getZhaoBurgeXY polids [c0, c1, c2, c3, c4, c5, c6, c7, c8, c9, c10, c11, c12, c13, c14] x y = .ok (_, _) from rfl]
  simp only [getZ_1, getZ_2, getZ_3, getZ_4, getZ_5, getZ_6, getZ_7, getZ_8, getZ_11, getZ_12, getZ_13, getZ_16,
    getZ_17, ev, Zp, List.map_cons, List.map_nil, List.sum_cons, List.sum_nil, Real.sqrt_one]
  refine congrArg Except.ok (Prod.ext ?_ ?_)
  · push_cast
    linear_combination (2 * (x ^ 2 + y ^ 2) - 1) * (c6 + c12) * h3 +
      c8 * (6 * (x ^ 2 + y ^ 2) ^ 2 - 6 * (x ^ 2 + y ^ 2) + 1) * h5
  · push_cast
    linear_combination (2 * (x ^ 2 + y ^ 2) - 1) * (c5 - c13) * h3 +
      c9 * (6 * (x ^ 2 + y ^ 2) ^ 2 - 6 * (x ^ 2 + y ^ 2) + 1) * h5

/-- Eight points of the unit disk. -/
noncomputable def eight : List (ℝ × ℝ) :=
  [(0, 0), (1/2, 0), (0, 1/2), (-1/2, 0), (0, -1/2), (1/2, 1/2), (-1/2, 1/2), (1, 0)]

theorem expand_zero (c0 c1 c2 c3 c4 c5 c6 c7 c8 c9 c10 c11 c12 c13 c14 : ℝ)
    (h : ∀ p ∈ eight, getZhaoBurgeXY polids [c0, c1, c2, c3, c4, c5, c6, c7, c8, c9, c10, c11, c12, c13, c14] p.1 p.2 = .ok (0, 0)) :
    [c0, c1, c2, c3, c4, c5, c6, c7, c8, c9, c10, c11, c12, c13, c14] = List.replicate 15 (0 : ℝ) := by
  have hr : 0 < rh := Real.sqrt_pos.2 (by norm_num)
  have s4 : 0 < rh * √4 := mul_pos hr (Real.sqrt_pos.2 (by norm_num))
  have s6 : 0 < √6 / 2 := half_pos (Real.sqrt_pos.2 (by norm_num))
  have s8 : 0 < rh * √8 := mul_pos hr (Real.sqrt_pos.2 (by norm_num))
  have s10 : 0 < √10 / 2 := half_pos (Real.sqrt_pos.2 (by norm_num))
  have s12 : 0 < rh * √12 := mul_pos hr (Real.sqrt_pos.2 (by norm_num))
  simp only [expand] at h
  generalize rh * √4 = f4 at h s4
  generalize √6 / 2 = f6 at h s6
  generalize rh * √8 = f8 at h s8
  generalize √10 / 2 = f10 at h s10
  generalize rh * √12 = f12 at h s12
  have h0 := Prod.mk.inj (Except.ok.inj (h (0, 0) (by simp [eight])))
  have x0 := h0.1
  have y0 := h0.2
  have h1 := Prod.mk.inj (Except.ok.inj (h (1/2, 0) (by simp [eight])))
  have x1 := h1.1
  have y1 := h1.2
  have h2 := Prod.mk.inj (Except.ok.inj (h (0, 1/2) (by simp [eight])))
  have x2 := h2.1
  have y2 := h2.2
  have h3 := Prod.mk.inj (Except.ok.inj (h (-1/2, 0) (by simp [eight])))
  have x3 := h3.1
  have y3 := h3.2
  have h4 := Prod.mk.inj (Except.ok.inj (h (0, -1/2) (by simp [eight])))
  have x4 := h4.1
  have y4 := h4.2
  have h5 := Prod.mk.inj (Except.ok.inj (h (1/2, 1/2) (by simp [eight])))
  have x5 := h5.1
  have y5 := h5.2
  have h6 := Prod.mk.inj (Except.ok.inj (h (-1/2, 1/2) (by simp [eight])))
  have x6 := h6.1
  have y6 := h6.2
  have h7 := Prod.mk.inj (Except.ok.inj (h (1, 0) (by simp [eight])))
  have x7 := h7.1
  have y7 := h7.2
  dsimp only at x0 y0 x1 y1 x2 y2 x3 y3 x4 y4 x5 y5 x6 y6 x7 y7
  have e0 : c0 = 0 := by
    linear_combination (-1/2) * x1 + (-1/2) * y1 + (-1/2) * x3 + (1/2) * y3 + (1) * x4 + (1/2) * x5 + 
      (1/2) * y5 + (1/2) * x6 + (-1/2) * y6
  have e1 : c1 = 0 := by
    linear_combination (4) * y0 + (5/2) * x1 + (-9/2) * y1 + (-2) * y2 + (-5/2) * x3 + (-9/2) * y3 + 
      (3) * y4 + (-5/2) * x5 + (5/2) * y5 + (5/2) * x6 + (5/2) * y6
  have e2 : c2 = 0 := by
    refine (mul_eq_zero.1 (?_ : f4 * c2 = 0)).resolve_left s4.ne'
    linear_combination (-1) * x0 + (-8/3) * y0 + (-1/2) * x1 + (13/3) * y1 + (1) * x2 + (7/6) * y2 + 
      (19/6) * x3 + (7/3) * y3 + (-1) * x4 + (-5/2) * y4 + (1) * x5 + (-7/3) * y5 + (-3) * x6 + 
      (-1/3) * y6 + (1/3) * x7
  have e3 : c3 = 0 := by
    refine (mul_eq_zero.1 (?_ : f4 * c3 = 0)).resolve_left s4.ne'
    linear_combination (1/2) * y1 + (1/2) * x2 + (-1/2) * y3 + (-1/2) * x4
  have e4 : c4 = 0 := by
    refine (mul_eq_zero.1 (?_ : f4 * c4 = 0)).resolve_left s4.ne'
    linear_combination (1/2) * x1 + (-1/2) * y2 + (-1/2) * x3 + (1/2) * y4
  have e5 : c5 = 0 := by
    refine (mul_eq_zero.1 (?_ : f6 * c5 = 0)).resolve_left s6.ne'
    linear_combination (15/2) * y0 + (17/4) * x1 + (-35/4) * y1 + (-7/2) * y2 + (-17/4) * x3 + 
      (-35/4) * y3 + (5) * y4 + (-17/4) * x5 + (17/4) * y5 + (17/4) * x6 + (17/4) * y6
  have e6 : c6 = 0 := by
    refine (mul_eq_zero.1 (?_ : f6 * c6 = 0)).resolve_left s6.ne'
    linear_combination (7/10) * x0 + (-19/20) * x1 + (-17/20) * y1 + (-11/10) * x2 + (-19/20) * x3 + 
      (17/20) * y3 + (3/5) * x4 + (17/20) * x5 + (17/20) * y5 + (17/20) * x6 + (-17/20) * y6
  have e7 : c7 = 0 := by
    refine (mul_eq_zero.1 (?_ : f8 * c7 = 0)).resolve_left s8.ne'
    linear_combination (-6/5) * x0 + (-8/15) * y0 + (4/5) * x1 + (28/15) * y1 + (6/5) * x2 + (2/15) * y2 + 
      (12/5) * x3 + (-8/15) * y3 + (-6/5) * x4 + (-2/5) * y4 + (-4/5) * x5 + (-22/15) * y5 + (-8/5) * x6 + 
      (14/15) * y6 + (2/5) * x7
  have e8 : c8 = 0 := by
    refine (mul_eq_zero.1 (?_ : f10 * c8 = 0)).resolve_left s10.ne'
    linear_combination (4/5) * x0 + (-4/5) * x1 + (-2/5) * y1 + (-2/5) * x2 + (-4/5) * x3 + (2/5) * y3 + 
      (2/5) * x4 + (2/5) * x5 + (2/5) * y5 + (2/5) * x6 + (-2/5) * y6
  have e9 : c9 = 0 := by
    refine (mul_eq_zero.1 (?_ : f10 * c9 = 0)).resolve_left s10.ne'
    linear_combination (4) * y0 + (2) * x1 + (-4) * y1 + (-2) * y2 + (-2) * x3 + (-4) * y3 + (2) * y4 + 
      (-2) * x5 + (2) * y5 + (2) * x6 + (2) * y6
  have e10 : c10 = 0 := by
    refine (mul_eq_zero.1 (?_ : f12 * c10 = 0)).resolve_left s12.ne'
    linear_combination (-4/5) * x0 + (16/5) * y0 + (16/5) * x1 + (-16/5) * y1 + (4/5) * x2 + (-4/5) * y2 + 
      (-16/15) * x3 + (-24/5) * y3 + (-4/5) * x4 + (12/5) * y4 + (-16/5) * x5 + (4/5) * y5 + (8/5) * x6 + 
      (12/5) * y6 + (4/15) * x7
  have e11 : c11 = 0 := by
    refine (mul_eq_zero.1 (?_ : f4 * c11 = 0)).resolve_left s4.ne'
    linear_combination (4/3) * x0 + (1/3) * x1 + (1/2) * y1 + (-11/6) * x2 + (1/3) * x3 + (-1/2) * y3 + 
      (-3/2) * x4 + (2/3) * x5 + (-1) * y5 + (2/3) * x6 + (1) * y6
  have e12 : c12 = 0 := by
    refine (mul_eq_zero.1 (?_ : f6 * c12 = 0)).resolve_left s6.ne'
    linear_combination (-9/10) * x0 + (-7/20) * x1 + (-1/20) * y1 + (7/10) * x2 + (-7/20) * x3 + 
      (1/20) * y3 + (4/5) * x4 + (1/20) * x5 + (1/20) * y5 + (1/20) * x6 + (-1/20) * y6
  have e13 : c13 = 0 := by
    refine (mul_eq_zero.1 (?_ : f6 * c13 = 0)).resolve_left s6.ne'
    linear_combination (1/2) * y0 + (-1/4) * x1 + (-1/4) * y1 + (1/2) * y2 + (1/4) * x3 + (-1/4) * y3 + 
      (1/4) * x5 + (-1/4) * y5 + (-1/4) * x6 + (-1/4) * y6
  have e14 : c14 = 0 := by
    refine (mul_eq_zero.1 (?_ : f8 * c14 = 0)).resolve_left s8.ne'
    linear_combination (16/15) * x0 + (4/15) * x1 + (4/5) * y1 + (-28/15) * x2 + (4/15) * x3 + 
      (-4/5) * y3 + (-4/5) * x4 + (8/15) * x5 + (-4/5) * y5 + (8/15) * x6 + (4/5) * y6
  rw [e0, e1, e2, e3, e4, e5, e6, e7, e8, e9, e10, e11, e12, e13, e14]
  rfl

/-- **C98** (solvable). `fit` succeeds exactly if the table has rows, and at no setting some non-zero combination of the
fifteen fields vanishes at all the points of the tangent plane. -/
theorem C98_solvable (rows : List Row) : (∃ cfgs, fit rows = .ok cfgs) ↔ rows ≠ [] ∧
    ∀ r ∈ rows, ¬ ∃ c : Fin polids.length → ℝ, c ≠ 0 ∧ ∀ s ∈ rows, s.adc1 + 1000 * s.adc2 = r.adc1 + 1000 * r.adc2 →
      getZhaoBurgeXY polids (List.ofFn c) (reduceTan s.tan).1 (reduceTan s.tan).2 = .ok (0, 0) := by
  have hone : ∀ r ∈ rows, (∃ c, fitConfig rows (key r) = .ok c) ↔
      ¬ ∃ c : Fin polids.length → ℝ, c ≠ 0 ∧ ∀ s ∈ rows, s.adc1 + 1000 * s.adc2 = r.adc1 + 1000 * r.adc2 →
      getZhaoBurgeXY polids (List.ofFn c) (reduceTan s.tan).1 (reduceTan s.tan).2 = .ok (0, 0) := by
    intro r hr
    have hs := Verif.Props.C62_solvable polids polids_known
      ((rows.filter fun s => decide (key s = key r)).map fitPt)
    have hin : r ∈ rows.filter fun s => decide (key s = key r) := List.mem_filter.2 ⟨hr, by simp⟩
    have e1 : (∃ c, fitConfig rows (key r) = .ok c) ↔
        ∃ c, fitZhaoBurge polids ((rows.filter fun s => decide (key s = key r)).map fitPt) = .ok c := by
      unfold fitConfig
      dsimp only
      generalize (rows.filter fun s => decide (key s = key r)) = sel at hin
      cases sel with
      | nil => cases hin
      | cons a t =>
        dsimp only
        constructor
        · rintro ⟨c, hc⟩
          obtain ⟨z, hz, _⟩ := (RayRun.bind_iff _ _ _).1 hc
          exact ⟨z, hz⟩
        · rintro ⟨z, hz⟩
          rw [hz]
          exact ⟨_, rfl⟩
    rw [e1, hs]
    refine not_congr (exists_congr fun c => and_congr_right fun _ => ?_)
    constructor
    · intro h s hs hk
      exact h (fitPt s) (List.mem_map_of_mem (List.mem_filter.2 ⟨hs, decide_eq_true hk⟩))
    · intro h q hq
      obtain ⟨s, hs, rfl⟩ := List.mem_map.1 hq
      obtain ⟨hs, hk⟩ := List.mem_filter.1 hs
      exact h s hs (of_decide_eq_true hk)
  have hmem := (unique_spec (rows.map key)).2
  unfold fit
  constructor
  · rintro ⟨cfgs, h⟩
    split_ifs at h with hne
    refine ⟨hne, fun r hr => (hone r hr).1 ?_⟩
    rw [RayRun.mapM_iff] at h
    obtain ⟨c, _, hc⟩ := RayAdc.mem_right h.flip (key r) ((hmem _).2 (List.mem_map_of_mem hr))
    exact ⟨c, hc⟩
  · rintro ⟨hne, h⟩
    rw [if_neg hne]
    have h1 : ∀ v ∈ unique (rows.map key), ∃ c, fitConfig rows v = .ok c := by
      intro v hv
      obtain ⟨r, hr, rfl⟩ := List.mem_map.1 ((hmem v).1 hv)
      exact (hone r hr).2 (h r hr)
    have : Nonempty Config := ⟨⟨0, 0, 1, 0, 0, 0, []⟩⟩
    choose! f hf using h1
    exact ⟨_, Lemmas.mapM_ok _ f _ hf⟩

/-- **C98** (eight points). Eight points of the tangent plane at each setting are enough. -/
theorem C98_eight (rows : List Row) (hne : rows ≠ [])
    (h : ∀ r ∈ rows, ∀ p ∈ eight, ∃ s ∈ rows, s.adc1 = r.adc1 ∧ s.adc2 = r.adc2 ∧ reduceTan s.tan = p) :
    ∃ cfgs, fit rows = .ok cfgs := by
  refine (C98_solvable rows).2 ⟨hne, fun r hr => ?_⟩
  rintro ⟨c, hc, h0⟩
  refine hc ?_
  have hz : ∀ p ∈ eight, getZhaoBurgeXY polids (List.ofFn c) p.1 p.2 = .ok (0, 0) := by
    intro p hp
    obtain ⟨s, hs, e1, e2, rfl⟩ := h r hr p hp
    exact h0 s hs (by rw [e1, e2])
  have e : List.ofFn c = List.replicate 15 0 := expand_zero _ _ _ _ _ _ _ _ _ _ _ _ _ _ _ hz
  have e2 : List.ofFn c = List.ofFn fun _ : Fin polids.length => (0 : ℝ) := by
    rw [e]
    simp [polids]
  exact List.ofFn_injective e2

/-! ## At the settings of the table -/

theorem delta_of (a1 a2 : ℝ) (h0 : 0 ≤ a2 - a1) (h1 : a2 - a1 < 360) : deltaAnglesAdc a1 a2 = a2 - a1 := by
  unfold deltaAnglesAdc
  exact Trig.same_unique (Trig.put360_same _) (Trig.put360_range _).1 (Trig.put360_range _).2 h0 h1

/-- **C98** (settings of the table). At a setting of the table with a difference in [0, 360) the transformation
is the distortion fitted to that setting, applied in axes turned by the mean of the two angles. -/
theorem C98_setting (itp : List (ℝ × ℝ) → ℝ → Except PyErr ℝ) (hi : Interp1d itp)
    (sort : List Config → List Config) (hs : Sorts sort) (rows : List Row) (cfgs : List Config)
    (hf : fit rows = .ok cfgs) (hu : Usable cfgs) (c : Config) (hc : c ∈ cfgs)
    (z : Fin polids.length → ℝ) (hz : c.zb = List.ofFn z) (h0 : c.adc1 ≤ c.adc2)
    (h1 : c.adc2 < c.adc1 + 360) (pts : List (ℝ × ℝ)) :
    (model itp sort cfgs).tan2fp pts c.adc1 c.adc2 = .ok (pts.map fun p =>
      Verif.Props.turn ((c.adc1 + c.adc2) / 2) (distorted z (Verif.Props.turn (-((c.adc1 + c.adc2) / 2)) p))) := by
  have hp := fit_plain rows cfgs hf
  have hd : deltaAnglesAdc c.adc1 c.adc2 = dadc c := delta_of _ _ (by linarith) (by linarith)
  have hk : (model itp sort cfgs).interp (deltaAnglesAdc c.adc1 c.adc2) = .ok ⟨1, 0, 0, 0, List.ofFn z⟩ := by
    rw [hd, ← hz]
    exact interpolate_knot itp hi sort hs cfgs hp hu c hc
  obtain ⟨D, hD, hdist⟩ := distorted_ok z
  have hm : SameAngle (averageAnglesAdc c.adc1 c.adc2) ((c.adc1 + c.adc2) / 2) := by
    have := (Verif.Props.C27_mean c.adc1 c.adc2 (c.adc2 - c.adc1) (by linarith) (by linarith)
      ⟨0, by push_cast; ring⟩).2.2
    have e : c.adc1 + (c.adc2 - c.adc1) / 2 = (c.adc1 + c.adc2) / 2 := by ring
    rw [e] at this
    exact this
  have hm' : SameAngle (-averageAnglesAdc c.adc1 c.adc2) (-((c.adc1 + c.adc2) / 2)) := by
    obtain ⟨k, hk⟩ := hm
    exact ⟨-k, by push_cast; rw [hk]; ring⟩
  rw [Verif.Props.tan2fp_core _ _ _ _ _ hk, fvc2fp_eq _ hD, Verif.Props.turn_same hm, Verif.Props.turn_same hm']
  show Except.ok _ = _
  congr 1
  rw [List.map_map, List.map_map]
  apply List.map_congr_left
  intro p _
  simp only [Function.comp]
  rw [hdist]
  have hl : ∀ r : ℝ × ℝ, lin (Verif.Props.core (model itp sort cfgs) ⟨1, 0, 0, 0, List.ofFn z⟩) r = r := by
    intro r
    unfold lin Verif.Props.core
    simp
  have hr : ∀ q, (Verif.Props.core (model itp sort cfgs) ⟨1, 0, 0, 0, List.ofFn z⟩).reduceFvc q = reduceTan q := by
    intro q
    unfold FVC2FP.reduceFvc Verif.Props.core reduceTan
    simp
  rw [hr, hl]

/-- Residuals of the fit in reduced coordinates, and in the focal plane. -/
theorem misfit_eq (z : Fin polids.length → ℝ) (sel : List Row) :
    misfit (sel.map fun r => distorted z r.tan) (sel.map Row.fp) =
      420 ^ 2 * Verif.Props.residual polids z (sel.map fitPt) := by
  obtain ⟨D, hD, hdist⟩ := distorted_ok z
  unfold misfit Verif.Props.residual
  rw [List.map_map, ← List.sum_map_mul_left, List.zip_map', List.map_map]
  congr 1
  apply List.map_congr_left
  intro r _
  simp only [Function.comp, fitPt]
  rw [hD, hdist]
  unfold expandFp reduceFp reduceTan
  simp only [Prod.fst_add, Prod.snd_add]
  ring

/-- **C98** (best fit). At a setting of the table with opposite angles `(-a, a)`, `0 ≤ a < 180`, no polynomial distortion
of the kind fitted comes nearer to the ray traced points of that setting (sum of squared distances in the
focal plane) than the transformation. -/
theorem C98_best (itp : List (ℝ × ℝ) → ℝ → Except PyErr ℝ) (hi : Interp1d itp)
    (sort : List Config → List Config) (hs : Sorts sort) (rows : List Row) (cfgs : List Config)
    (hf : fit rows = .ok cfgs) (hu : Usable cfgs) (ha : Apart rows) (a : ℝ) (h0 : 0 ≤ a) (h1 : a < 180)
    (hr : ∃ r ∈ rows, r.adc1 = -a ∧ r.adc2 = a) :
    let sel := rows.filter fun r => decide (r.adc1 = -a ∧ r.adc2 = a)
    ∃ out, (model itp sort cfgs).tan2fp (sel.map Row.tan) (-a) a = .ok out ∧
      ∀ z, misfit out (sel.map Row.fp) ≤ misfit (sel.map fun r => distorted z r.tan) (sel.map Row.fp) := by
  intro sel
  obtain ⟨_, hmem, hfit⟩ := C98_settings rows cfgs ha hf
  obtain ⟨c, hc, e1, e2⟩ := (hmem (-a) a).2 hr
  obtain ⟨z, hz, hzb, _⟩ := hfit c hc
  have hset := C98_setting itp hi sort hs rows cfgs hf hu c hc z hzb (by rw [e1, e2]; linarith)
    (by rw [e1, e2]; linarith) (sel.map Row.tan)
  have hm : (-a + a) / 2 = 0 := by ring
  rw [e1, e2, hm, neg_zero, List.map_map] at hset
  have e : (List.map ((fun p => Verif.Props.turn 0 (distorted z (Verif.Props.turn 0 p))) ∘ Row.tan) sel) =
      sel.map fun r => distorted z r.tan := by
    apply List.map_congr_left
    intro r _
    simp only [Function.comp, Verif.Props.turn_zero]
  rw [e] at hset
  refine ⟨_, hset, fun z' => ?_⟩
  rw [misfit_eq, misfit_eq]
  rw [e1, e2] at hz
  exact mul_le_mul_of_nonneg_left (Verif.Props.C62_optimal polids polids_known _ z' z hz) (by norm_num)

/-- **C98** (exact data). If the ray traced points of such a setting are a polynomial distortion of that kind, the
transformation reproduces them. -/
theorem C98_exact (itp : List (ℝ × ℝ) → ℝ → Except PyErr ℝ) (hi : Interp1d itp)
    (sort : List Config → List Config) (hs : Sorts sort) (rows : List Row) (cfgs : List Config)
    (hf : fit rows = .ok cfgs) (hu : Usable cfgs) (ha : Apart rows) (a : ℝ) (h0 : 0 ≤ a) (h1 : a < 180)
    (hr : ∃ r ∈ rows, r.adc1 = -a ∧ r.adc2 = a) (z : Fin polids.length → ℝ)
    (hz : ∀ r ∈ rows, r.adc1 = -a → r.adc2 = a → r.fp = distorted z r.tan) (pts : List (ℝ × ℝ)) :
    (model itp sort cfgs).tan2fp pts (-a) a = .ok (pts.map (distorted z)) := by
  obtain ⟨_, hmem, hfit⟩ := C98_settings rows cfgs ha hf
  obtain ⟨c, hc, e1, e2⟩ := (hmem (-a) a).2 hr
  obtain ⟨z', hz', hzb, _⟩ := hfit c hc
  have hset := C98_setting itp hi sort hs rows cfgs hf hu c hc z' hzb (by rw [e1, e2]; linarith)
    (by rw [e1, e2]; linarith) pts
  have hm : (-a + a) / 2 = 0 := by ring
  rw [e1, e2, hm, neg_zero] at hset
  simp only [Verif.Props.turn_zero] at hset
  rw [hset]
  have : z' = z := by
    refine Verif.Props.C62_exact polids polids_known _ z z' ?_ hz'
    intro q hq
    obtain ⟨r, hr, rfl⟩ := List.mem_map.1 hq
    obtain ⟨hr, hp⟩ := List.mem_filter.1 hr
    rw [decide_eq_true_eq, e1, e2] at hp
    have := hz r hr hp.1 hp.2
    obtain ⟨D, hD, hdist⟩ := distorted_ok z
    unfold Verif.Props.DistortsTo fitPt
    dsimp only
    rw [hD, this, hdist]
    congr 1
    unfold reduceFp expandFp
    ext <;> simp
  rw [this]

/-- **C98** (finding). The setting (-180, 180) of the table is not used at that setting: there the transformation
is the one for the setting (0, 0), turned by half a turn. -/
theorem C98_opposite (t : RayTraceFit) (pts : List (ℝ × ℝ)) :
    t.tan2fp pts (-180) 180 = (do
      let out ← t.tan2fp (pts.map (Verif.Props.turn (-180))) 0 0
      return out.map (Verif.Props.turn 180)) := by
  have h := Verif.Props.C27_equivariance t (pts.map (Verif.Props.turn (-180))) 0 0 180
  have e : (pts.map (Verif.Props.turn (-180))).map (Verif.Props.turn 180) = pts := by
    rw [List.map_map]
    conv_rhs => rw [← List.map_id pts]
    apply List.map_congr_left
    intro p _
    simp only [Function.comp, id]
    exact Verif.Props.turn_undo 180 p
  rw [e] at h
  rw [← h]
  have h2 := (Verif.Props.C27_turns t pts (0 + 180) (0 + 180) (-1) 0).1
  rw [← h2]
  congr 1 <;> norm_num

/-- **C98** (all settings). If the table reaches from difference 0 to difference 360, the transformation in both
directions is defined for all angles of the corrector. -/
theorem C98_total (itp : List (ℝ × ℝ) → ℝ → Except PyErr ℝ) (hi : Interp1d itp)
    (sort : List Config → List Config) (hs : Sorts sort) (rows : List Row) (cfgs : List Config)
    (hf : fit rows = .ok cfgs) (hu : Usable cfgs) (h0 : ∃ c ∈ cfgs, dadc c ≤ 0)
    (h1 : ∃ c ∈ cfgs, 360 ≤ dadc c) (pts : List (ℝ × ℝ)) (a1 a2 : ℝ) :
    (∃ out, (model itp sort cfgs).tan2fp pts a1 a2 = .ok out) ∧
    (pts ≠ [] → ∃ out, (model itp sort cfgs).fp2tan pts a1 a2 = .ok out) := by
  obtain ⟨d0, d1, _⟩ := Verif.Props.C27_delta a1 a2
  refine (C98_range itp hi sort hs rows cfgs hf hu pts a1 a2).1 ⟨?_, ?_⟩
  · obtain ⟨c, hc, h⟩ := h0
    exact ⟨c, hc, h.trans d0⟩
  · obtain ⟨c, hc, h⟩ := h1
    exact ⟨c, hc, d1.le.trans h⟩

theorem nineteen (rows : List Row) (hset : ∀ a1 a2, (∃ r ∈ rows, r.adc1 = a1 ∧ r.adc2 = a2) ↔
      ∃ k < 19, a1 = -10 * (k : ℕ) ∧ a2 = 10 * (k : ℕ)) :
    Apart rows ∧ ∀ cfgs, fit rows = .ok cfgs →
      cfgs.map (fun c => (c.adc1, c.adc2)) = (List.range 19).map (fun k : ℕ => ((-10 * k : ℝ), (10 * k : ℝ))) ∧
      cfgs.map dadc = (List.range 19).map (fun k : ℕ => (20 * k : ℝ)) ∧ Usable cfgs := by
  have ha : Apart rows := by
    intro r hr s hs hk
    obtain ⟨k, _, r1, r2⟩ := (hset r.adc1 r.adc2).1 ⟨r, hr, rfl, rfl⟩
    obtain ⟨l, _, s1, s2⟩ := (hset s.adc1 s.adc2).1 ⟨s, hs, rfl, rfl⟩
    unfold key at hk
    rw [r1, r2, s1, s2] at hk
    have : (k : ℝ) = l := by linarith
    rw [r1, r2, s1, s2, this]
    exact ⟨rfl, rfl⟩
  refine ⟨ha, fun cfgs hf => ?_⟩
  obtain ⟨hp, hm, _⟩ := C98_settings _ cfgs ha hf
  have hlist : cfgs.map (fun c => (c.adc1, c.adc2)) =
      (List.range 19).map (fun k : ℕ => ((-10 * k : ℝ), (10 * k : ℝ))) := by
    have p1 : (cfgs.map (fun c => (c.adc1, c.adc2))).Pairwise fun a b : ℝ × ℝ =>
        a.1 + 1000 * a.2 < b.1 + 1000 * b.2 := List.pairwise_map.2 hp
    have p2 : ((List.range 19).map (fun k : ℕ => ((-10 * k : ℝ), (10 * k : ℝ)))).Pairwise fun a b : ℝ × ℝ =>
        a.1 + 1000 * a.2 < b.1 + 1000 * b.2 := by
      refine List.pairwise_map.2 (List.pairwise_lt_range.imp fun {a b} h => ?_)
      have : (a : ℝ) < b := by exact_mod_cast h
      show -10 * (a : ℝ) + 1000 * (10 * a) < -10 * b + 1000 * (10 * b)
      linarith
    have nd : ∀ l : List (ℝ × ℝ), (l.Pairwise fun a b => a.1 + 1000 * a.2 < b.1 + 1000 * b.2) → l.Nodup :=
      fun l h => h.imp fun h e => by rw [e] at h; exact lt_irrefl _ h
    refine List.Perm.eq_of_pairwise (fun a b _ _ h1 h2 => absurd (h1.trans h2) (lt_irrefl _)) p1 p2 ?_
    rw [List.perm_ext_iff_of_nodup (nd _ p1) (nd _ p2)]
    rintro ⟨a1, a2⟩
    have e1 : (a1, a2) ∈ cfgs.map (fun c => (c.adc1, c.adc2)) ↔ ∃ c ∈ cfgs, c.adc1 = a1 ∧ c.adc2 = a2 := by
      simp only [List.mem_map, Prod.mk.injEq]
    rw [e1, hm, hset]
    simp only [List.mem_map, List.mem_range, Prod.mk.injEq]
    exact exists_congr fun k => and_congr_right fun _ => and_congr eq_comm eq_comm
  have hd : cfgs.map dadc = (List.range 19).map (fun k : ℕ => (20 * k : ℝ)) := by
    have := congrArg (List.map fun q : ℝ × ℝ => q.2 - q.1) hlist
    rw [List.map_map, List.map_map] at this
    rw [show cfgs.map dadc = cfgs.map ((fun q : ℝ × ℝ => q.2 - q.1) ∘ fun c => (c.adc1, c.adc2)) from rfl, this]
    apply List.map_congr_left
    intro k _
    simp only [Function.comp]
    ring
  have hu : Usable cfgs := by
    constructor
    · have := congrArg List.length hlist
      rw [List.length_map, List.length_map, List.length_range] at this
      omega
    · rw [hd]
      refine List.Nodup.map ?_ List.nodup_range
      intro a b h
      have : (20 * a : ℝ) = 20 * b := h
      exact_mod_cast (by linarith : (a : ℝ) = b)
  exact ⟨hlist, hd, hu⟩

/-- **C98** (table of run.py). If the table written by run.py can be fitted, the result has the nineteen settings
(-10 k, 10 k) in this order, and the transformation is defined for all angles of the corrector. -/
theorem C98_run (num : PyStr → Option ℝ) (files : Verif.RayTrace.Files) (out : List Verif.RayTrace.OutRow)
    (hrun : Verif.RayTrace.table num files = .ok out) (cfgs : List Config)
    (hf : fit (out.map ofRun) = .ok cfgs) :
    cfgs.map (fun c => (c.adc1, c.adc2)) = (List.range 19).map (fun k : ℕ => ((-10 * k : ℝ), (10 * k : ℝ))) ∧
    Apart (out.map ofRun) ∧ Usable cfgs ∧
    ∀ (itp : List (ℝ × ℝ) → ℝ → Except PyErr ℝ) (_ : Interp1d itp) (sort : List Config → List Config)
      (_ : Sorts sort) (pts : List (ℝ × ℝ)) (a1 a2 : ℝ),
      (∃ out, (model itp sort cfgs).tan2fp pts a1 a2 = .ok out) ∧
      (pts ≠ [] → ∃ out, (model itp sort cfgs).fp2tan pts a1 a2 = .ok out) := by
  have hset : ∀ a1 a2, (∃ r ∈ out.map ofRun, r.adc1 = a1 ∧ r.adc2 = a2) ↔
      ∃ k < 19, a1 = -10 * (k : ℕ) ∧ a2 = 10 * (k : ℕ) := by
    intro a1 a2
    obtain ⟨parts, hparts, rfl⟩ := (RayRun.C97_settings num files out).1 hrun
    constructor
    · rintro ⟨r, hr, rfl, rfl⟩
      obtain ⟨o, ho, rfl⟩ := List.mem_map.1 hr
      obtain ⟨part, hpart, ho⟩ := List.mem_flatten.1 ho
      obtain ⟨k, hk, hw⟩ := RayAdc.mem_right hparts part hpart
      obtain ⟨q, _, r, _, rfl⟩ := RayAdc.mem_right ((RayRun.C97_rows num files _ part).1 hw) o ho
      refine ⟨k, List.mem_range.1 hk, ?_, rfl⟩
      show -(10 * (k : ℝ)) = _
      ring
    · rintro ⟨k, hk, rfl, rfl⟩
      obtain ⟨part, hpart, hw⟩ := RayAdc.mem_right hparts.flip k (List.mem_range.2 hk)
      obtain ⟨q, hq, _⟩ := RayRun.C97_cover (-(10 * (k : ℝ))) (10 * k) 0.1 (by norm_num) (by norm_num) 0 0
        (by norm_num) (by norm_num)
      obtain ⟨o, ho, r, _, rfl⟩ := RayAdc.mem_right ((RayRun.C97_rows num files _ part).1 hw).flip q hq
      refine ⟨_, List.mem_map_of_mem (List.mem_flatten.2 ⟨part, hpart, ho⟩), ?_, rfl⟩
      show -(10 * (k : ℝ)) = _
      ring
  obtain ⟨ha, hn⟩ := nineteen _ hset
  obtain ⟨hlist, hd, hu⟩ := hn cfgs hf
  refine ⟨hlist, ha, hu, fun itp hi sort hs pts a1 a2 => ?_⟩
  have ex : ∀ k : ℕ, k < 19 → ∃ c ∈ cfgs, dadc c = 20 * k := by
    intro k hk
    have : (20 * k : ℝ) ∈ cfgs.map dadc := by
      rw [hd]
      exact List.mem_map.2 ⟨k, List.mem_range.2 hk, rfl⟩
    obtain ⟨c, hc, e⟩ := List.mem_map.1 this
    exact ⟨c, hc, e⟩
  obtain ⟨c0, hc0, e0⟩ := ex 0 (by norm_num)
  obtain ⟨c1, hc1, e1⟩ := ex 18 (by norm_num)
  exact C98_total itp hi sort hs _ cfgs hf hu ⟨c0, hc0, by rw [e0]; norm_num⟩ ⟨c1, hc1, by rw [e1]; norm_num⟩ pts a1 a2

/-! ## The hypotheses can be met -/

/-- A table with the nineteen settings and eight points at each. -/
noncomputable def small : List Row := (List.range 19).flatMap fun (k : ℕ) => eight.map fun p =>
  ⟨-10 * k, 10 * k, (p.1 * 0.027, p.2 * 0.027), (p.1 * 420, p.2 * 420)⟩

theorem small_mem (r : Row) : r ∈ small ↔ ∃ k < 19, ∃ p ∈ eight,
    r = ⟨-10 * (k : ℕ), 10 * (k : ℕ), (p.1 * 0.027, p.2 * 0.027), (p.1 * 420, p.2 * 420)⟩ := by
  unfold small
  rw [List.mem_flatMap]
  refine exists_congr fun k => and_congr List.mem_range ?_
  rw [List.mem_map]
  exact exists_congr fun p => and_congr_right fun _ => eq_comm

/-- The hypotheses of the theorems of this file are met by this table, for each of the nineteen settings. -/
theorem small_ok : Apart small ∧ ∃ cfgs, fit small = .ok cfgs ∧ Usable cfgs ∧ (∃ c ∈ cfgs, dadc c ≤ 0) ∧
    (∃ c ∈ cfgs, 360 ≤ dadc c) ∧ ∀ k < 18, (0 : ℝ) ≤ 10 * (k : ℕ) ∧ (10 * k : ℝ) < 180 ∧
      ∃ r ∈ small, r.adc1 = -(10 * k) ∧ r.adc2 = 10 * k := by
  have h0 : (⟨-10 * (0 : ℕ), 10 * (0 : ℕ), (0 * 0.027, 0 * 0.027), (0 * 420, 0 * 420)⟩ : Row) ∈ small :=
    (small_mem _).2 ⟨0, by norm_num, (0, 0), by simp [eight], rfl⟩
  obtain ⟨cfgs, hf⟩ := C98_eight small (List.ne_nil_of_mem h0) (by
    intro r hr p hp
    obtain ⟨k, hk, q, _, rfl⟩ := (small_mem r).1 hr
    refine ⟨_, (small_mem _).2 ⟨k, hk, p, hp, rfl⟩, rfl, rfl, ?_⟩
    unfold reduceTan
    dsimp only
    rw [mul_div_cancel_right₀ _ (by norm_num), mul_div_cancel_right₀ _ (by norm_num)])
  have hset : ∀ a1 a2, (∃ r ∈ small, r.adc1 = a1 ∧ r.adc2 = a2) ↔
      ∃ k < 19, a1 = -10 * (k : ℕ) ∧ a2 = 10 * (k : ℕ) := by
    intro a1 a2
    constructor
    · rintro ⟨r, hr, rfl, rfl⟩
      obtain ⟨k, hk, q, _, rfl⟩ := (small_mem r).1 hr
      exact ⟨k, hk, rfl, rfl⟩
    · rintro ⟨k, hk, rfl, rfl⟩
      exact ⟨_, (small_mem _).2 ⟨k, hk, (0, 0), by simp [eight], rfl⟩, rfl, rfl⟩
  obtain ⟨ha, hn⟩ := nineteen small hset
  obtain ⟨_, hd, hu⟩ := hn cfgs hf
  have ex : ∀ k : ℕ, k < 19 → ∃ c ∈ cfgs, dadc c = 20 * k := by
    intro k hk
    have : (20 * k : ℝ) ∈ cfgs.map dadc := by
      rw [hd]
      exact List.mem_map.2 ⟨k, List.mem_range.2 hk, rfl⟩
    obtain ⟨c, hc, e⟩ := List.mem_map.1 this
    exact ⟨c, hc, e⟩
  obtain ⟨c0, hc0, e0⟩ := ex 0 (by norm_num)
  obtain ⟨c1, hc1, e1⟩ := ex 18 (by norm_num)
  refine ⟨ha, cfgs, hf, hu, ⟨c0, hc0, by rw [e0]; norm_num⟩, ⟨c1, hc1, by rw [e1]; norm_num⟩, fun k hk => ?_⟩
  have hk' : (k : ℝ) < 18 := by exact_mod_cast hk
  refine ⟨by positivity, by linarith, (hset _ _).2 ⟨k, by omega, by ring, rfl⟩⟩

/-- A table for `C98_collision`: eight points at the first setting, one at the second. -/
example : ∃ cfgs, fit ((eight.map fun p => ⟨0, 0, (p.1 * 0.027, p.2 * 0.027), (0, 0)⟩) ++
    [⟨100, -0.1, (0.01, 0.02), (3, 4)⟩]) = .ok cfgs := by
  refine (C98_solvable _).2 ⟨by simp, fun r hr => ?_⟩
  rintro ⟨c, hc, h0⟩
  have hk : r.adc1 + 1000 * r.adc2 = 0 := by
    rcases List.mem_append.1 hr with h | h
    · obtain ⟨p, _, rfl⟩ := List.mem_map.1 h
      simp
    · obtain rfl := List.mem_singleton.1 h
      norm_num
  refine hc ?_
  have hz : ∀ p ∈ eight, getZhaoBurgeXY polids (List.ofFn c) p.1 p.2 = .ok (0, 0) := by
    intro p hp
    have := h0 _ (List.mem_append_left _ (List.mem_map_of_mem hp)) (by rw [hk]; simp)
    unfold reduceTan at this
    dsimp only at this
    rwa [mul_div_cancel_right₀ _ (by norm_num), mul_div_cancel_right₀ _ (by norm_num)] at this
  have e : List.ofFn c = List.replicate 15 0 := expand_zero _ _ _ _ _ _ _ _ _ _ _ _ _ _ _ hz
  have e2 : List.ofFn c = List.ofFn fun _ : Fin polids.length => (0 : ℝ) := by
    rw [e]
    simp [polids]
  exact List.ofFn_injective e2

end Verif.Props.RayFit
