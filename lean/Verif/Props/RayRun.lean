import Verif.Model.RayRun
import Verif.Props.RayDesi
import Verif.Props.RayMedia

/-!
# C97: whole runs of the ray tracer

`getNine`: number, mean and scatter of the points at which the rays of the pupil arrive; turning of
the whole; and the grid of directions of run.py.
-/

namespace Verif.Props.RayRun

open Verif.Py Verif.RayTrace
open Verif.Props.RayFrames Verif.Props.RayTurn Verif.Props.RayAdc Verif.Props.RayTables

/-! ## Specification -/

/-- The direction of the star `q` for a ray that goes up or down as that of the table. -/
noncomputable def direction (q : Wuv) (s : Start) : V3 :=
  ⟨q.u, q.v, (if 0 ≤ s.ray.dir.z then 1 else -1) * Real.sqrt (1 - q.u ^ 2 - q.v ^ 2)⟩

/-- The ray of the star `q` through the point of the pupil of the ray `s` of the table. -/
noncomputable def incoming (q : Wuv) (s : Start) : Hit :=
  ⟨⟨s.ray.pos, direction q s⟩, ⟨⟨0, 0, 0⟩, ⟨0, 0, 0⟩⟩⟩

/-- `pts` are the points at which the rays of the star `q` arrive: the rays that get through, in the
order of the table; there are two at least. -/
def Spot (num : PyStr → Option ℝ) (m : Media) (T : List Surf) (rays : List Start) (q : Wuv)
    (pts : List V3) : Prop :=
  q.u ^ 2 + q.v ^ 2 ≤ 1 ∧ 2 ≤ pts.length ∧
  ∃ wave res, item letters (trunc q.w) = .ok wave ∧
    List.Forall₂ (fun s o => final (findRefraction num m wave) T (incoming q s) = .ok o) rays res ∧
    pts = (res.filterMap id).map (fun r => r.pos)

/-- Mean of a list. -/
noncomputable def mean (l : List ℝ) : ℝ := l.sum / l.length

/-- Root of the mean square deviation from the mean. -/
noncomputable def scatter (l : List ℝ) : ℝ := Real.sqrt (mean (l.map fun x => (x - mean l) ^ 2))

/-! ## Wavelengths -/

/-- **C97** (wavelengths). The number of a wavelength is truncated; 0 to 7 stand for the eight letters,
larger ones are an `IndexError`. -/
theorem C97_wave (w : ℝ) (h0 : 0 ≤ w) :
    (∀ k : ℕ, (hk : k < 8) → (k : ℝ) ≤ w → w < k + 1 →
      item letters (trunc w) = .ok (letters[k]'(by unfold letters; exact hk))) ∧
    (8 ≤ w → item letters (trunc w) = .error .indexError) := by
  have ht : trunc w = ⌊w⌋ := by unfold trunc; rw [if_pos h0]
  constructor
  · intro k hk h1 h2
    have : ⌊w⌋ = (k : ℤ) := by rw [Int.floor_eq_iff]; exact ⟨by exact_mod_cast h1, by exact_mod_cast h2⟩
    rw [ht, this]
    unfold item
    dsimp only
    rw [if_neg (by omega : ¬ (k : ℤ) < 0), if_neg (by omega), Int.toNat_natCast,
      List.getElem?_eq_getElem (by unfold letters; exact hk)]
  · intro h8
    have h : (8 : ℤ) ≤ ⌊w⌋ := Int.le_floor.2 (by exact_mod_cast h8)
    rw [ht]
    unfold item
    dsimp only
    rw [if_neg (by omega : ¬ ⌊w⌋ < 0), if_neg (by omega), List.getElem?_eq_none]
    show 8 ≤ _
    omega

/-- **C97** (finding). A negative number of a wavelength counts from the end: -1 is the longest one. -/
theorem C97_negative_wave : item letters (trunc (-1)) = .ok "t".toList := by
  have : trunc (-1) = -1 := by
    unfold trunc
    rw [if_neg (by norm_num)]
    norm_num
  rw [this]
  rfl

theorem item_mem (i : Int) (wave : PyStr) (h : item letters i = .ok wave) : wave ∈ letters := by
  unfold item at h
  dsimp only at h
  split_ifs at h
  all_goals
    first
    | cases h
    | (split at h
       · rename_i x hx
         rw [← Except.ok.inj h]
         exact List.mem_of_getElem? hx
       · cases h)

theorem letter_ok (wave : PyStr) (h : wave ∈ letters) : ∃ c, letter2index wave = .ok c := by
  unfold letters at h
  simp only [List.mem_cons, List.not_mem_nil, or_false] at h
  rcases h with rfl | rfl | rfl | rfl | rfl | rfl | rfl | rfl
  · exact ⟨0, rfl⟩
  · exact ⟨1, rfl⟩
  · exact ⟨2, rfl⟩
  · exact ⟨3, rfl⟩
  · exact ⟨4, rfl⟩
  · exact ⟨5, rfl⟩
  · exact ⟨6, rfl⟩
  · exact ⟨7, rfl⟩

/-! ## Lists of results -/

theorem mapM_iff {α β : Type} (f : α → Except PyErr β) (l : List α) (out : List β) :
    l.mapM f = .ok out ↔ List.Forall₂ (fun a b => f a = .ok b) l out := by
  induction l generalizing out with
  | nil =>
    rw [List.mapM_nil]
    constructor
    · intro h
      obtain rfl := Except.ok.inj h
      exact .nil
    · intro h
      cases h
      rfl
  | cons a t ih =>
    rw [List.mapM_cons]
    constructor
    · intro h
      cases ha : f a with
      | error e => rw [ha] at h; cases h
      | ok b =>
        rw [ha] at h
        have h : (do let bs ← t.mapM f; pure (b :: bs)) = Except.ok out := h
        cases ht : t.mapM f with
        | error e => rw [ht] at h; cases h
        | ok bs =>
          rw [ht] at h
          obtain rfl := Except.ok.inj h
          exact .cons ha ((ih bs).1 ht)
    · intro h
      cases h with
      | cons ha ht =>
        rw [ha]
        show (do let bs ← t.mapM f; pure (_ :: bs)) = Except.ok _
        rw [(ih _).2 ht]
        rfl

theorem bind_iff {α β : Type} (x : Except PyErr α) (f : α → Except PyErr β) (b : β) :
    (x >>= f) = .ok b ↔ ∃ a, x = .ok a ∧ f a = .ok b := by
  cases x with
  | error e =>
    constructor
    · intro h; cases h
    · rintro ⟨a, h, _⟩; cases h
  | ok a =>
    constructor
    · intro h; exact ⟨a, rfl, h⟩
    · rintro ⟨a', h, h'⟩
      obtain rfl := Except.ok.inj h
      exact h'

/-! ## One direction -/

/-- The rays of the table with the direction of `q`. -/
noncomputable def aimed (q : Wuv) (wave : PyStr) (s : Start) : Start :=
  ⟨⟨s.ray.pos, direction q s⟩, wave⟩

theorem fixup_direction (q : Wuv) (s : Start) :
    fixup q.u q.v s.ray.dir.z =
      if q.u ^ 2 + q.v ^ 2 ≤ 1 then .ok (direction q s).z else .error (.sysExit 0) := by
  unfold fixup direction
  dsimp only
  have e : 1 - q.u * q.u - q.v * q.v = 1 - q.u ^ 2 - q.v ^ 2 := by ring
  rw [e]
  by_cases h : q.u ^ 2 + q.v ^ 2 ≤ 1
  · rw [if_neg (by linarith), if_pos h]
    split_ifs
    · rw [one_mul]
    · rw [neg_one_mul]
  · rw [if_pos (by linarith), if_neg h]

/-- **C97** (direction of the star). `prepForcedRayGroup` gives every ray of the table the wavelength and
the direction of the star, of unit length, going up or down as before, and keeps its position;
it ends the program if there is no such direction. -/
theorem C97_aim (q : Wuv) (rays : List Start) (hr : rays ≠ []) :
    (∀ out, prepForced q rays = .ok out ↔ q.u ^ 2 + q.v ^ 2 ≤ 1 ∧
      ∃ wave, item letters (trunc q.w) = .ok wave ∧ out = rays.map (aimed q wave)) ∧
    (q.u ^ 2 + q.v ^ 2 ≤ 1 → ∀ s, (direction q s).x ^ 2 + (direction q s).y ^ 2 +
      (direction q s).z ^ 2 = 1) := by
  constructor
  · intro out
    unfold prepForced
    rw [bind_iff]
    constructor
    · rintro ⟨wave, hw, h⟩
      rw [mapM_iff] at h
      have hu : q.u ^ 2 + q.v ^ 2 ≤ 1 := by
        cases rays with
        | nil => exact absurd rfl hr
        | cons s t =>
          cases h with
          | cons h _ =>
            by_contra hc
            rw [fixup_direction, if_neg hc] at h
            cases h
      refine ⟨hu, wave, hw, ?_⟩
      clear hr
      induction h with
      | nil => rfl
      | @cons s o t t' h1 _ ih =>
        rw [fixup_direction, if_pos hu] at h1
        rw [List.map_cons, ← ih]
        congr 1
        exact (Except.ok.inj h1).symm
    · rintro ⟨hu, wave, hw, rfl⟩
      refine ⟨wave, hw, ?_⟩
      rw [mapM_iff, List.forall₂_map_right_iff, List.forall₂_same]
      intro s _
      rw [fixup_direction, if_pos hu]
      rfl
  · intro hu s
    unfold direction
    dsimp only
    rw [mul_pow, Real.sq_sqrt (by linarith)]
    split_ifs <;> ring

theorem tableRay_eq (num : PyStr → Option ℝ) (m : Media) (T : List Surf) (hT : T ≠ []) (q : Wuv)
    (wave : PyStr) (s : Start) (c : ℕ) (hc : letter2index wave = .ok c) :
    runTableRay num m T (aimed q wave s) =
      (final (findRefraction num m wave) T (incoming q s)).map (Option.map fun r => (r.pos, c)) := by
  unfold runTableRay final
  show ((runOneRay (findRefraction num m wave) T (incoming q s)) >>= _) = _
  have hlen : ∀ x, runOneRay (findRefraction num m wave) T (incoming q s) = .ok x →
      x.1 = x.2.length := by
    intro x hx
    unfold runOneRay at hx
    split at hx
    · cases hx
    · rw [← Except.ok.inj hx]
  cases hro : runOneRay (findRefraction num m wave) T (incoming q s) with
  | error e => rfl
  | ok x =>
    obtain ⟨n, rows⟩ := x
    have hn := hlen _ hro
    dsimp only at hn
    show (if n = T.length then _ else _ : Except PyErr (Option (V3 × ℕ))) = _
    by_cases h : n = T.length
    · rw [if_pos h]
      obtain ⟨hl, hh⟩ : ∃ hl, rows.getLast? = some hl := by
        cases hg : rows.getLast? with
        | some a => exact ⟨a, rfl⟩
        | none =>
          rw [List.getLast?_eq_none_iff] at hg
          rw [hg] at hn
          rw [hn] at h
          exact absurd (List.length_eq_zero_iff.1 h.symm) hT
      have hD : rows.getLastD (incoming q s) = hl := by
        rw [List.getLastD_eq_getLast?, hh]
        rfl
      rw [hh]
      dsimp only
      rw [if_pos h, hD]
      show ((letter2index wave) >>= _) = _
      rw [hc]
      rfl
    · rw [if_neg h]
      dsimp only
      rw [if_neg h]
      rfl

theorem map_ok {α β : Type} (x : Except PyErr α) (f : α → β) (b : β) :
    x.map f = .ok b ↔ ∃ a, x = .ok a ∧ f a = b := by
  cases x with
  | error e =>
    constructor
    · intro h; cases h
    · rintro ⟨a, h, _⟩; cases h
  | ok a =>
    constructor
    · intro h; exact ⟨a, rfl, Except.ok.inj h⟩
    · rintro ⟨a', h, rfl⟩
      obtain rfl := Except.ok.inj h
      rfl

/-- The results of all rays, paired with the wavelength. -/
theorem forall₂_map_pair {α β γ : Type} (f : α → Except PyErr (Option β)) (g : β → γ) (l : List α)
    (out : List (Option γ)) :
    List.Forall₂ (fun a b => (f a).map (Option.map g) = .ok b) l out ↔
      ∃ res, List.Forall₂ (fun a o => f a = .ok o) l res ∧ out = res.map (Option.map g) := by
  constructor
  · intro h
    induction h with
    | nil => exact ⟨[], .nil, rfl⟩
    | cons h1 _ ih =>
      obtain ⟨a, ha, rfl⟩ := (map_ok _ _ _).1 h1
      obtain ⟨res, hr, rfl⟩ := ih
      exact ⟨a :: res, .cons ha hr, rfl⟩
  · rintro ⟨res, hr, rfl⟩
    rw [List.forall₂_map_right_iff]
    exact hr.imp fun a o h => by rw [h]; rfl

theorem filterMap_id_map {β γ : Type} (g : β → γ) (res : List (Option β)) :
    (res.map (Option.map g)).filterMap id = (res.filterMap id).map g := by
  induction res with
  | nil => rfl
  | cons o t ih =>
    cases o with
    | none => exact ih
    | some b => exact congrArg (g b :: ·) ih

/-- One turn of the loop over wavelengths. -/
theorem wave_iff (num : PyStr → Option ℝ) (m : Media) (T : List Surf) (hT : T ≠ []) (q : Wuv)
    (rays : List Start) (pts : List V3) (rays' : List Start) :
    (∃ xyzc, prepForced q rays = .ok rays' ∧ runAll num m T rays' = .ok xyzc ∧
      pts = xyzc.map Prod.fst) ↔
    Spot num m T rays q pts ∧ ∃ wave, item letters (trunc q.w) = .ok wave ∧
      rays' = rays.map (aimed q wave) := by
  by_cases hr : rays = []
  · subst hr
    constructor
    · rintro ⟨xyzc, h1, h2, _⟩
      unfold prepForced at h1
      obtain ⟨wave, _, h1⟩ := (bind_iff _ _ _).1 h1
      rw [List.mapM_nil] at h1
      obtain rfl := Except.ok.inj h1
      cases h2
    · rintro ⟨⟨_, hl, wave, res, _, hres, rfl⟩, _⟩
      cases hres
      exact absurd hl (by simp)
  have key : ∀ wave, item letters (trunc q.w) = .ok wave → ∀ xyzc,
      (runAll num m T (rays.map (aimed q wave)) = .ok xyzc ↔ ∃ res c, letter2index wave = .ok c ∧
        List.Forall₂ (fun s o => final (findRefraction num m wave) T (incoming q s) = .ok o)
          rays res ∧ xyzc = (res.filterMap id).map (fun r => (r.pos, c)) ∧ 2 ≤ xyzc.length) := by
    intro wave hw xyzc
    obtain ⟨c, hc⟩ := letter_ok wave (item_mem _ _ hw)
    unfold runAll
    rw [bind_iff]
    have e : ∀ out, (rays.map (aimed q wave)).mapM (runTableRay num m T) = .ok out ↔
        ∃ res, List.Forall₂ (fun s o => final (findRefraction num m wave) T (incoming q s) = .ok o)
          rays res ∧ out = res.map (Option.map fun r => (r.pos, c)) := by
      intro out
      rw [mapM_iff, List.forall₂_map_left_iff, ← forall₂_map_pair]
      constructor <;> intro h <;> refine h.imp fun s b hb => ?_
      · rw [← hb, tableRay_eq num m T hT q wave s c hc]
      · rw [← hb, tableRay_eq num m T hT q wave s c hc]
    constructor
    · rintro ⟨out, h1, h2⟩
      obtain ⟨res, hres, rfl⟩ := (e out).1 h1
      dsimp only at h2
      rw [filterMap_id_map] at h2
      split_ifs at h2 with hl
      obtain rfl := Except.ok.inj h2
      exact ⟨res, c, hc, hres, rfl, by omega⟩
    · rintro ⟨res, c', hc', hres, rfl, hl⟩
      obtain rfl := Except.ok.inj (hc.symm.trans hc')
      refine ⟨_, (e _).2 ⟨res, hres, rfl⟩, ?_⟩
      dsimp only
      rw [filterMap_id_map, if_neg (by omega)]
  constructor
  · rintro ⟨xyzc, h1, h2, rfl⟩
    obtain ⟨hu, wave, hw, rfl⟩ := ((C97_aim q rays hr).1 _).1 h1
    obtain ⟨res, c, _, hres, rfl, hl⟩ := (key wave hw _).1 h2
    refine ⟨⟨hu, by rw [List.length_map]; exact hl, wave, res, hw, hres, ?_⟩, wave, hw, rfl⟩
    rw [List.map_map]
    rfl
  · rintro ⟨⟨hu, hl, wave, res, hw, hres, rfl⟩, wave', hw', rfl⟩
    obtain rfl := Except.ok.inj (hw.symm.trans hw')
    obtain ⟨c, hc⟩ := letter_ok wave (item_mem _ _ hw)
    refine ⟨(res.filterMap id).map (fun r => (r.pos, c)), ((C97_aim q rays hr).1 _).2
      ⟨hu, wave, hw, rfl⟩, (key wave hw _).2 ⟨res, c, hc, hres, rfl, ?_⟩, ?_⟩
    · rw [List.length_map] at hl ⊢
      exact hl
    · rw [List.map_map]
      rfl

/-- The wavelength in the table and the direction in it do not matter, except for going up or down. -/
theorem spot_aimed (num : PyStr → Option ℝ) (m : Media) (T : List Surf) (rays : List Start) (q q' : Wuv)
    (wave : PyStr) (pts : List V3) (h : q.u ^ 2 + q.v ^ 2 < 1) :
    Spot num m T (rays.map (aimed q wave)) q' pts ↔ Spot num m T rays q' pts := by
  have e : ∀ s, incoming q' (aimed q wave s) = incoming q' s := by
    intro s
    unfold incoming aimed direction
    dsimp only
    have hp : 0 < Real.sqrt (1 - q.u ^ 2 - q.v ^ 2) := Real.sqrt_pos.2 (by linarith)
    congr 4
    by_cases hz : 0 ≤ s.ray.dir.z
    · rw [if_pos hz, if_pos (by rw [one_mul]; exact hp.le)]
    · rw [if_neg hz, if_neg (by rw [neg_one_mul]; linarith)]
  unfold Spot
  simp only [List.forall₂_map_left_iff, e]

theorem waves_iff (num : PyStr → Option ℝ) (m : Media) (T : List Surf) (hT : T ≠ []) (l : List Wuv)
    (hl : ∀ q ∈ l, q.u ^ 2 + q.v ^ 2 ≠ 1) (rays : List Start)
    (lists : List (List V3)) :
    runWaves num m T l rays = .ok lists ↔ List.Forall₂ (Spot num m T rays) l lists := by
  induction l generalizing rays lists with
  | nil =>
    constructor
    · intro h
      obtain rfl := Except.ok.inj h
      exact .nil
    · intro h
      cases h
      rfl
  | cons q l ih =>
    have hl' : ∀ q ∈ l, q.u ^ 2 + q.v ^ 2 ≠ 1 := fun p hp => hl p (List.mem_cons_of_mem _ hp)
    have hq := hl q List.mem_cons_self
    have conv : ∀ wave pts, Spot num m T rays q pts → ∀ ls,
        (List.Forall₂ (Spot num m T (rays.map (aimed q wave))) l ls ↔
          List.Forall₂ (Spot num m T rays) l ls) := by
      intro wave pts hs ls
      have hlt : q.u ^ 2 + q.v ^ 2 < 1 := lt_of_le_of_ne hs.1 hq
      constructor <;> intro h <;> refine h.imp fun a b hab => ?_
      · exact (spot_aimed num m T rays q a wave b hlt).1 hab
      · exact (spot_aimed num m T rays q a wave b hlt).2 hab
    unfold runWaves
    simp only [bind_iff]
    constructor
    · rintro ⟨rays', h1, xyzc, h2, rest, h3, h4⟩
      obtain rfl := Except.ok.inj h4
      obtain ⟨hs, wave, hw, rfl⟩ := (wave_iff num m T hT q rays _ rays').1 ⟨xyzc, h1, h2, rfl⟩
      rw [ih hl' _] at h3
      exact .cons hs ((conv wave _ hs rest).1 h3)
    · intro h
      cases h with
      | cons hs hrest =>
        rename_i pts rest
        obtain ⟨wave, hw⟩ : ∃ wave, item letters (trunc q.w) = .ok wave := by
          obtain ⟨_, _, wave, _, hw, _⟩ := hs
          exact ⟨wave, hw⟩
        obtain ⟨xyzc, h1, h2, rfl⟩ := (wave_iff num m T hT q rays pts _).2 ⟨hs, wave, hw, rfl⟩
        refine ⟨_, h1, xyzc, h2, rest, ?_, rfl⟩
        rw [ih hl' _]
        exact (conv wave _ hs rest).2 hrest

/-! ## Means -/

/-- All wavelengths have the same number of good rays. -/
def Even (lists : List (List V3)) : Prop := ∀ l ∈ lists, l.length = (lists.headD []).length

theorem average_eq (f : V3 → ℝ) (lists : List (List V3)) :
    (Even lists → average (lists.map (List.map f)) = .ok (mean (lists.flatten.map f))) ∧
    (¬ Even lists → average (lists.map (List.map f)) = .error .valueError) := by
  have e : (((lists.map (List.map f)).all fun l =>
      decide (l.length = ((lists.map (List.map f)).headD []).length)) = true) ↔ Even lists := by
    rw [List.all_eq_true]
    unfold Even
    constructor
    · intro h l hl
      have := h (l.map f) (List.mem_map_of_mem hl)
      rw [decide_eq_true_eq, List.length_map] at this
      rw [this]
      cases lists <;> simp
    · intro h l hl
      obtain ⟨l, hl', rfl⟩ := List.mem_map.1 hl
      rw [decide_eq_true_eq, List.length_map, h l hl']
      cases lists <;> simp
  unfold average
  constructor
  · intro h
    rw [if_pos (e.2 h), mean, List.map_flatten]
  · intro h
    rw [if_neg (fun c => h (e.1 c))]

theorem std_eq (f : V3 → ℝ) (lists : List (List V3)) (h : Even lists) :
    std (lists.map (List.map f)) = .ok (scatter (lists.flatten.map f)) := by
  unfold std
  rw [(average_eq f lists).1 h]
  show ((average _) >>= _) = _
  have e : (lists.map (List.map f)).map (fun l => l.map fun x =>
      (x - mean (lists.flatten.map f)) ^ 2) =
      lists.map (List.map fun p => (f p - mean (lists.flatten.map f)) ^ 2) := by
    rw [List.map_map]
    apply List.map_congr_left
    intro l _
    rw [Function.comp, List.map_map]
    rfl
  rw [e, (average_eq _ lists).1 h]
  show Except.ok (Real.sqrt _) = _
  unfold scatter
  rw [List.map_map]
  rfl

/-- The result for the points `lists` of each wavelength. -/
noncomputable def nineOf (q : Wuv) (lists : List (List V3)) : Nine :=
  let pts := lists.flatten
  ⟨q.adc1, q.adc2, pts.length, ⟨mean (pts.map V3.x), mean (pts.map V3.y), mean (pts.map V3.z)⟩,
    ⟨scatter (pts.map V3.x), scatter (pts.map V3.y), scatter (pts.map V3.z)⟩⟩

theorem flatten_length (lists : List (List V3)) :
    (lists.map fun l => (l.length : ℝ)).sum = (lists.flatten.length : ℝ) := by
  induction lists with
  | nil => simp
  | cons a t ih => rw [List.map_cons, List.sum_cons, ih, List.flatten_cons, List.length_append]; push_cast; rfl

theorem modify_ne (adc1 adc2 : ℝ) (S T : List Surf) (h : modifyADC adc1 adc2 S = .ok T) :
    T ≠ [] := by
  unfold modifyADC at h
  simp only [bind_iff] at h
  obtain ⟨a, h1, b, h2, c, h3, h4⟩ := h
  unfold setRoll at h4
  split at h4
  · cases h4
  · rename_i x hx
    rw [← Except.ok.inj h4]
    intro hc
    rw [← List.length_eq_zero_iff, List.length_set, List.length_eq_zero_iff] at hc
    rw [hc] at hx
    cases hx

/-- **C97** (points of arrival). `getNine` returns the number, the means and the scatter of the points at
which the rays of the table of rays arrive, with the wavelength and direction of each row of
the argument, in the telescope with the corrector at the angles of the first row.  It does so if
and only if all of the tables can be read, every wavelength has at least two good rays, and all have
the same number.  (`u² + v² ≠ 1`: not at a right angle to the axis.) -/
theorem C97_nine (num : PyStr → Option ℝ) (files : Files) (q : Wuv) (l : List Wuv)
    (hl : ∀ p ∈ q :: l, p.u ^ 2 + p.v ^ 2 ≠ 1) (r : Nine) :
    getNine num files (q :: l) = .ok r ↔
      ∃ S R m T lists, getOptics num files.opt = .ok S ∧ getRays num files.ray 84 = .ok R ∧
        getMedia num files.med (S.map Surf.glass) (R.map Start.wave) = .ok m ∧
        modifyADC q.adc1 q.adc2 S = .ok T ∧ List.Forall₂ (Spot num m T R) (q :: l) lists ∧
        Even lists ∧ r = nineOf q lists := by
  unfold getNine
  simp only [bind_iff]
  constructor
  · rintro ⟨S, h1, R, h2, m, h3, T, h4, lists, h5, xa, a1, ya, a2, za, a3, xr, a4, yr, a5, zr, a6, h7⟩
    rw [waves_iff num m T (modify_ne _ _ _ _ h4) _ hl R] at h5
    have he : Even lists := by
      by_contra hc
      rw [(average_eq V3.x lists).2 hc] at a1
      cases a1
    rw [(average_eq V3.x lists).1 he] at a1
    rw [(average_eq V3.y lists).1 he] at a2
    rw [(average_eq V3.z lists).1 he] at a3
    rw [std_eq V3.x lists he] at a4
    rw [std_eq V3.y lists he] at a5
    rw [std_eq V3.z lists he] at a6
    obtain rfl := Except.ok.inj a1
    obtain rfl := Except.ok.inj a2
    obtain rfl := Except.ok.inj a3
    obtain rfl := Except.ok.inj a4
    obtain rfl := Except.ok.inj a5
    obtain rfl := Except.ok.inj a6
    refine ⟨S, R, m, T, lists, h1, h2, h3, h4, h5, he, ?_⟩
    rw [← Except.ok.inj h7, flatten_length]
    rfl
  · rintro ⟨S, R, m, T, lists, h1, h2, h3, h4, h5, he, rfl⟩
    refine ⟨S, h1, R, h2, m, h3, T, h4, lists,
      (waves_iff num m T (modify_ne _ _ _ _ h4) _ hl R lists).2 h5,
      _, (average_eq V3.x lists).1 he, _, (average_eq V3.y lists).1 he, _,
      (average_eq V3.z lists).1 he, _, std_eq V3.x lists he, _, std_eq V3.y lists he, _,
      std_eq V3.z lists he, ?_⟩
    rw [flatten_length]
    rfl

/-- **C97** (finding). If the wavelengths of one call have different numbers of good rays, the call ends with
a `ValueError`. -/
theorem C97_uneven (num : PyStr → Option ℝ) (files : Files) (q : Wuv) (l : List Wuv)
    (hl : ∀ p ∈ q :: l, p.u ^ 2 + p.v ^ 2 ≠ 1) (S T : List Surf) (R : List Start) (m : Media)
    (lists : List (List V3))
    (h1 : getOptics num files.opt = .ok S) (h2 : getRays num files.ray 84 = .ok R)
    (h3 : getMedia num files.med (S.map Surf.glass) (R.map Start.wave) = .ok m)
    (h4 : modifyADC q.adc1 q.adc2 S = .ok T) (h5 : List.Forall₂ (Spot num m T R) (q :: l) lists)
    (he : ¬ Even lists) : getNine num files (q :: l) = .error .valueError := by
  unfold getNine
  rw [h1]
  show ((getRays num files.ray 84) >>= _) = _
  rw [h2]
  show ((getMedia num files.med (S.map Surf.glass) (R.map Start.wave)) >>= _) = _
  rw [h3]
  show ((modifyADC q.adc1 q.adc2 S) >>= _) = _
  rw [h4]
  show ((runWaves num m T (q :: l) R) >>= _) = _
  rw [(waves_iff num m T (modify_ne _ _ _ _ h4) _ hl R lists).2 h5]
  show ((average _) >>= _) = _
  rw [(average_eq V3.x lists).2 he]
  rfl

/-- **C97** (scatter). The scatter of two points or more is never negative, and zero exactly if they have
the same coordinate; its square is the mean square less the squared mean. -/
theorem C97_scatter (l : List ℝ) (hl : l ≠ []) :
    0 ≤ scatter l ∧ (scatter l = 0 ↔ ∀ x ∈ l, x = mean l) ∧
    scatter l ^ 2 = mean (l.map fun x => x ^ 2) - mean l ^ 2 := by
  have hn : (0 : ℝ) < l.length := by exact_mod_cast List.length_pos_of_ne_nil hl
  have hs : ∀ (l : List ℝ) (a : ℝ), (l.map fun x => (x - a) ^ 2).sum =
      (l.map fun x => x ^ 2).sum - 2 * a * l.sum + l.length * a ^ 2 := by
    intro l a
    induction l with
    | nil => simp
    | cons b t ih => simp only [List.map_cons, List.sum_cons, List.length_cons, ih]; push_cast; ring
  have h0 : 0 ≤ (l.map fun x => (x - mean l) ^ 2).sum :=
    List.sum_nonneg fun y hy => by obtain ⟨x, _, rfl⟩ := List.mem_map.1 hy; positivity
  have hm : 0 ≤ mean (l.map fun x => (x - mean l) ^ 2) := div_nonneg h0 (by positivity)
  refine ⟨Real.sqrt_nonneg _, ?_, ?_⟩
  · unfold scatter
    rw [Real.sqrt_eq_zero hm]
    constructor
    · intro h x hx
      have : (l.map fun x => (x - mean l) ^ 2).sum = 0 := by
        rw [mean, List.length_map, div_eq_zero_iff] at h
        rcases h with h | h
        · exact h
        · exact absurd h hn.ne'
      have hz := List.all_zero_of_le_zero_le_of_sum_eq_zero (l := l.map fun x => (x - mean l) ^ 2)
        (fun y hy => by obtain ⟨x, _, rfl⟩ := List.mem_map.1 hy; positivity) this
        (List.mem_map_of_mem hx)
      have := pow_eq_zero_iff (two_ne_zero) |>.1 hz
      linarith
    · intro h
      have : (l.map fun x => (x - mean l) ^ 2) = l.map fun _ => (0 : ℝ) :=
        List.map_congr_left fun x hx => by rw [h x hx]; simp
      rw [this, mean]
      simp
  · unfold scatter
    rw [Real.sq_sqrt hm, mean, hs, List.length_map]
    unfold mean
    rw [List.length_map]
    field_simp
    ring

/-- **C97** (finding). Only the angles of the corrector in the first row are used; those in the other rows are
ignored. -/
theorem C97_first_angles (num : PyStr → Option ℝ) (files : Files) (q : Wuv) (l l' : List Wuv)
    (h : List.Forall₂ (fun a b => a.w = b.w ∧ a.u = b.u ∧ a.v = b.v) l l') :
    getNine num files (q :: l) = getNine num files (q :: l') := by
  have hw : ∀ m T rays, runWaves num m T l rays = runWaves num m T l' rays := by
    intro m T
    induction h with
    | nil => intro rays; rfl
    | @cons a b t t' hab _ ih =>
      intro rays
      have e : prepForced a rays = prepForced b rays := by
        unfold prepForced
        rw [hab.1, hab.2.1, hab.2.2]
      unfold runWaves
      rw [e]
      simp only [ih]
  unfold getNine
  simp only [runWaves, hw]

/-! ## A telescope turned with the sky -/

/-- The star `q` turned by `t` degrees about the axis, with the corrector. -/
noncomputable def turned (t : ℝ) (q : Wuv) : Wuv :=
  ⟨q.w, Real.cos (radians t) * q.u - Real.sin (radians t) * q.v,
    Real.sin (radians t) * q.u + Real.cos (radians t) * q.v, q.adc1 + t, q.adc2 + t⟩

theorem Z_mul (t : ℝ) (a : V3) : (Z t).mul a =
    ⟨Real.cos (radians t) * a.x - Real.sin (radians t) * a.y,
      Real.sin (radians t) * a.x + Real.cos (radians t) * a.y, a.z⟩ := by
  have e := mat_Z t
  have h : ∀ i j, mat (Z t) i j = rotZ (radians t) i j := fun i j => by rw [e]
  have h00 := h 0 0
  have h01 := h 0 1
  have h02 := h 0 2
  have h10 := h 1 0
  have h11 := h 1 1
  have h12 := h 1 2
  have h20 := h 2 0
  have h21 := h 2 1
  have h22 := h 2 2
  simp [mat, rotZ] at h00 h01 h02 h10 h11 h12 h20 h21 h22
  unfold M3.mul
  rw [h00, h01, h02, h10, h11, h12, h20, h21, h22]
  congr 1 <;> ring

theorem turned_norm (t : ℝ) (q : Wuv) : (turned t q).u ^ 2 + (turned t q).v ^ 2 = q.u ^ 2 + q.v ^ 2 := by
  unfold turned
  dsimp only
  have := Real.sin_sq_add_cos_sq (radians t)
  linear_combination (q.u ^ 2 + q.v ^ 2) * this

/-- Points of the pupil of a symmetrical table: the spot turns. -/
theorem spot_turned (num : PyStr → Option ℝ) (m : Media) (T T' : List Surf) (R : List Start) (t : ℝ)
    (hT : ∀ refr start, final refr T' (turnHit (Z t) start) =
      (final refr T start).map (Option.map (turn (Z t))))
    (hz : ∀ s ∈ R, 0 ≤ s.ray.dir.z)
    (hp : (R.map fun s => (Z t).mul s.ray.pos).Perm (R.map fun s => s.ray.pos)) (q : Wuv)
    (pts : List V3) (h : Spot num m T R q pts) :
    ∃ pts', Spot num m T' R (turned t q) pts' ∧ pts'.Perm (pts.map (Z t).mul) := by
  obtain ⟨hu, hl, wave, res, hw, hres, rfl⟩ := h
  -- the final ray as a function of the point of the pupil
  let D : V3 := ⟨q.u, q.v, Real.sqrt (1 - q.u ^ 2 - q.v ^ 2)⟩
  let F : V3 → Except PyErr (Option Ray) := fun p =>
    final (findRefraction num m wave) T ⟨⟨p, D⟩, ⟨⟨0, 0, 0⟩, ⟨0, 0, 0⟩⟩⟩
  let F' : V3 → Except PyErr (Option Ray) := fun p =>
    final (findRefraction num m wave) T' ⟨⟨p, (Z t).mul D⟩, ⟨⟨0, 0, 0⟩, ⟨0, 0, 0⟩⟩⟩
  have hF : ∀ s ∈ R, final (findRefraction num m wave) T (incoming q s) = F s.ray.pos := by
    intro s hs
    show final _ _ _ = final _ _ _
    unfold incoming direction
    rw [if_pos (hz s hs), one_mul]
  have hF' : ∀ s ∈ R, final (findRefraction num m wave) T' (incoming (turned t q) s) =
      F' s.ray.pos := by
    intro s hs
    show final _ _ _ = final _ _ _
    unfold incoming direction
    rw [if_pos (hz s hs), one_mul, Z_mul]
    have e := turned_norm t q
    have e' : 1 - (turned t q).u ^ 2 - (turned t q).v ^ 2 = 1 - q.u ^ 2 - q.v ^ 2 := by linarith
    rw [e']
    rfl
  have hFF : ∀ p, F' ((Z t).mul p) = (F p).map (Option.map (turn (Z t))) := fun p => hT _ ⟨⟨p, D⟩, _⟩
  have h1 : List.Forall₂ (fun p o => F p = .ok o) (R.map fun s => s.ray.pos) res := by
    rw [List.forall₂_map_left_iff]
    have := List.forall₂_iff_get.1 hres
    refine List.forall₂_iff_get.2 ⟨this.1, fun i h1 h2 => ?_⟩
    rw [← hF _ (List.get_mem _ _)]
    exact this.2 i h1 h2
  have h2 : List.Forall₂ (fun p o => F' p = .ok o) (R.map fun s => (Z t).mul s.ray.pos)
      (res.map (Option.map (turn (Z t)))) := by
    rw [List.forall₂_map_right_iff]
    have e : (R.map fun s => (Z t).mul s.ray.pos) = (R.map fun s => s.ray.pos).map (Z t).mul := by
      rw [List.map_map]; rfl
    rw [e, List.forall₂_map_left_iff]
    exact h1.imp fun p o hpo => by rw [hFF, hpo]; rfl
  obtain ⟨res', h3, hpr⟩ := List.perm_comp_forall₂ hp.symm h2
  have hperm : ((res'.filterMap id).map fun r => r.pos).Perm
      (((res.filterMap id).map fun r => r.pos).map (Z t).mul) := by
    have := ((hpr.filterMap id).map fun r : Ray => r.pos)
    rw [filterMap_id_map, List.map_map] at this
    rw [List.map_map]
    exact this
  refine ⟨_, ⟨by rw [turned_norm]; exact hu, ?_, wave, res', hw, ?_, rfl⟩, hperm⟩
  · rw [hperm.length_eq, List.length_map]
    exact hl
  · rw [List.forall₂_map_left_iff] at h3
    have := List.forall₂_iff_get.1 h3
    refine List.forall₂_iff_get.2 ⟨this.1, fun i h1 h2 => ?_⟩
    rw [hF' _ (List.get_mem _ _)]
    exact this.2 i h1 h2

theorem mean_perm {l l' : List ℝ} (h : l.Perm l') : mean l = mean l' := by
  unfold mean
  rw [h.sum_eq, h.length_eq]

theorem mean_linear (l : List V3) (a b : ℝ) (f g : V3 → ℝ) :
    mean (l.map fun p => a * f p + b * g p) = a * mean (l.map f) + b * mean (l.map g) := by
  have : (l.map fun p => a * f p + b * g p).sum = a * (l.map f).sum + b * (l.map g).sum := by
    induction l with
    | nil => simp
    | cons p t ih => simp only [List.map_cons, List.sum_cons, ih]; ring
  unfold mean
  rw [this, List.length_map, List.length_map, List.length_map]
  ring

theorem scatter_sq (l : List ℝ) : scatter l ^ 2 = mean (l.map fun x => (x - mean l) ^ 2) := by
  unfold scatter
  rw [Real.sq_sqrt]
  exact div_nonneg (List.sum_nonneg fun y hy => by obtain ⟨x, _, rfl⟩ := List.mem_map.1 hy; positivity)
    (by positivity)

theorem nine_turned (t : ℝ) (q q' : Wuv) (pts pts' : List V3) (hpp : pts'.Perm (pts.map (Z t).mul)) :
    (nineOf q' [pts']).ngood = (nineOf q [pts]).ngood ∧
      (nineOf q' [pts']).ave = (Z t).mul (nineOf q [pts]).ave ∧
      (nineOf q' [pts']).rms.z = (nineOf q [pts]).rms.z ∧
      (nineOf q' [pts']).rms.x ^ 2 + (nineOf q' [pts']).rms.y ^ 2 =
        (nineOf q [pts]).rms.x ^ 2 + (nineOf q [pts]).rms.y ^ 2 := by
  have hlen : pts'.length = pts.length := by rw [hpp.length_eq, List.length_map]
  have fl : ∀ l : List V3, [l].flatten = l := fun l => by simp
  have hmap : ∀ f : V3 → ℝ, (pts'.map f).Perm (pts.map fun p => f ((Z t).mul p)) := by
    intro f
    have := hpp.map f
    rw [List.map_map] at this
    exact this
  have mx : mean (pts'.map V3.x) = Real.cos (radians t) * mean (pts.map V3.x) +
      -Real.sin (radians t) * mean (pts.map V3.y) := by
    rw [mean_perm (hmap V3.x), ← mean_linear]
    congr 1
    apply List.map_congr_left
    intro p _
    rw [Z_mul]
    ring
  have my : mean (pts'.map V3.y) = Real.sin (radians t) * mean (pts.map V3.x) +
      Real.cos (radians t) * mean (pts.map V3.y) := by
    rw [mean_perm (hmap V3.y), ← mean_linear]
    congr 1
    apply List.map_congr_left
    intro p _
    rw [Z_mul]
  have mz : mean (pts'.map V3.z) = mean (pts.map V3.z) := by
    rw [mean_perm (hmap V3.z)]
    congr 1
    apply List.map_congr_left
    intro p _
    rw [Z_mul]
  have dev : ∀ (l : List V3) (f : V3 → ℝ) (a : ℝ), (l.map f).map (fun x => (x - a) ^ 2) =
      l.map fun p => (f p - a) ^ 2 := fun l f a => by rw [List.map_map]; rfl
  unfold nineOf
  dsimp only
  rw [fl, fl]
  refine ⟨by rw [hlen], ?_, ?_, ?_⟩
  · rw [Z_mul, mx, my, mz]
    congr 1
    ring
  · unfold scatter
    rw [mz, dev, dev, mean_perm (hmap fun p => (V3.z p - mean (pts.map V3.z)) ^ 2)]
    congr 2
    apply List.map_congr_left
    intro p _
    rw [Z_mul]
  · rw [scatter_sq, scatter_sq, scatter_sq, scatter_sq, dev, dev, dev, dev,
      mean_perm (hmap fun p => (V3.x p - mean (pts'.map V3.x)) ^ 2),
      mean_perm (hmap fun p => (V3.y p - mean (pts'.map V3.y)) ^ 2)]
    have add : ∀ f g : V3 → ℝ, mean (pts.map f) + mean (pts.map g) =
        mean (pts.map fun p => f p + g p) := by
      intro f g
      have := mean_linear pts 1 1 f g
      simp only [one_mul] at this
      exact this.symm
    rw [add, add]
    congr 1
    apply List.map_congr_left
    intro p _
    rw [Z_mul, mx, my]
    dsimp only
    have hsc := Real.sin_sq_add_cos_sq (radians t)
    linear_combination ((p.x - mean (pts.map V3.x)) ^ 2 + (p.y - mean (pts.map V3.y)) ^ 2) * hsc

/-- **C97** (telescope turned with the sky). In the telescope of DESI, with a table of rays that is mapped to
itself by a turn of `t` degrees about the axis: if the star and both parts of the corrector are turned
by `t`, then as many rays arrive, and the mean point of arrival is turned by `t`; the scatter along
the axis and the total scatter across it remain. -/
theorem C97_field (num : PyStr → Option ℝ) (h0 : num "0".toList = some 0)
    (h1 : num "0.".toList = some 0) (files : Files) (hopt : files.opt = some desiOptics)
    (R : List Start) (hR : getRays num files.ray 84 = .ok R) (hz : ∀ s ∈ R, 0 ≤ s.ray.dir.z) (t : ℝ)
    (hp : (R.map fun s => (Z t).mul s.ray.pos).Perm (R.map fun s => s.ray.pos)) (q : Wuv)
    (hq : q.u ^ 2 + q.v ^ 2 ≠ 1) (r : Nine) (h : getNine num files [q] = .ok r) :
    ∃ r', getNine num files [turned t q] = .ok r' ∧ r'.ngood = r.ngood ∧
      r'.ave = (Z t).mul r.ave ∧ r'.rms.z = r.rms.z ∧
      r'.rms.x ^ 2 + r'.rms.y ^ 2 = r.rms.x ^ 2 + r.rms.y ^ 2 := by
  have hq' : ∀ p ∈ [q], p.u ^ 2 + p.v ^ 2 ≠ 1 := fun p hp => by rw [List.mem_singleton.1 hp]; exact hq
  have hq'' : ∀ p ∈ [turned t q], p.u ^ 2 + p.v ^ 2 ≠ 1 := fun p hp => by
    rw [List.mem_singleton.1 hp, turned_norm]; exact hq
  obtain ⟨S, R', m, T, lists, e1, e2, e3, e4, e5, _, rfl⟩ := (C97_nine num files q [] hq' r).1 h
  obtain rfl := Except.ok.inj (hR.symm.trans e2)
  obtain ⟨S', T₀, T', d1, d2, d3, d4⟩ := Verif.Props.RayDesi.C97_desi num h0 h1 q.adc1 q.adc2 t
  rw [hopt] at e1
  obtain rfl := Except.ok.inj (e1.symm.trans d1)
  obtain rfl := Except.ok.inj (e4.symm.trans d2)
  cases e5 with
  | cons hs hn =>
  cases hn
  rename_i pts _
  obtain ⟨pts', hs', hpp⟩ := spot_turned num m T T' R t d4 hz hp q pts hs
  refine ⟨nineOf (turned t q) [pts'], (C97_nine num files (turned t q) [] hq'' _).2
    ⟨S, R, m, T', [pts'], by rw [hopt]; exact e1, hR, e3, d3, .cons hs' .nil, ?_, rfl⟩, ?_⟩
  · intro l hl
    rw [List.mem_singleton.1 hl]
    rfl
  exact nine_turned t q (turned t q) pts pts' hpp

/-- A pupil of two opposite points is mapped to itself by a turn of 180 degrees. -/
example (x y z : ℝ) (d : V3) :
    let R : List Start := [⟨⟨⟨x, y, z⟩, d⟩, "F".toList⟩, ⟨⟨⟨-x, -y, z⟩, d⟩, "F".toList⟩]
    (R.map fun s => (Z 180).mul s.ray.pos).Perm (R.map fun s => s.ray.pos) := by
  have h : radians 180 = Real.pi := by unfold radians; ring
  simp only [List.map_cons, List.map_nil, Z_mul, h, Real.cos_pi, Real.sin_pi]
  ring_nf
  exact List.Perm.swap _ _ _

/-- Two rays of one wavelength and three of another. -/
example (p : V3) : ¬ Even [[p, p], [p, p, p]] := by
  intro h
  exact absurd (h [p, p, p] (by simp)) (by simp)

/-- Scatter of two different points. -/
example : scatter [1, 3] = 1 := by
  have : mean [1, 3] = 2 := by unfold mean; norm_num
  unfold scatter
  rw [this]
  unfold mean
  norm_num

/-! ## The grid of run.py -/

/-- **C97** (grid). Every direction of the grid is one at most 1.6 degrees from the axis, at the blue
wavelength 4860 Å and with the given angles of the corrector: it has a unit vector. -/
theorem C97_grid (adc1 adc2 dangle : ℝ) :
    ∀ q ∈ incomingRays adc1 adc2 dangle, q.adc1 = adc1 ∧ q.adc2 = adc2 ∧ q.w = 2 ∧
      item refwave (trunc q.w) = .ok 4860 ∧
      ∃ theta phi, 0 ≤ theta ∧ theta ≤ 1.6 ∧ q.u = Real.sin (radians theta) * Real.cos phi ∧
        q.v = Real.sin (radians theta) * Real.sin phi ∧ q.u ^ 2 + q.v ^ 2 < 1 := by
  intro q hq
  unfold incomingRays at hq
  obtain ⟨theta, ht, hq⟩ := List.mem_flatMap.1 hq
  unfold ring at hq
  dsimp only at hq
  obtain ⟨k, _, rfl⟩ := List.mem_map.1 hq
  have htr : trunc 2 = 2 := by
    unfold trunc
    rw [if_pos (by norm_num)]
    norm_num
  refine ⟨rfl, rfl, rfl, by show item refwave (trunc 2) = _; rw [htr]; rfl, theta, _, ?_, ?_, rfl, rfl, ?_⟩
  all_goals
    have hb : 0 ≤ theta ∧ theta ≤ 1.6 := by
      unfold linspace at ht
      obtain ⟨j, hj, rfl⟩ := List.mem_map.1 ht
      rw [List.mem_range] at hj
      split_ifs with h1
      · norm_num
      · generalize (trunc (1.6 / dangle) + 1).toNat = n at *
        have hn : (2 : ℝ) ≤ n := by exact_mod_cast (by omega : 2 ≤ n)
        have hj' : (j : ℝ) + 1 ≤ n := by exact_mod_cast hj
        constructor
        · apply mul_nonneg (by positivity)
          apply div_nonneg (by norm_num) (by linarith)
        · rw [mul_div_assoc', div_le_iff₀ (by linarith)]
          nlinarith
  · exact hb.1
  · exact hb.2
  · dsimp only
    have hpi := Real.pi_pos
    have hlt : Real.sin (radians theta) ^ 2 < 1 := by
      have hc : 0 < Real.cos (radians theta) := by
        apply Real.cos_pos_of_mem_Ioo
        unfold radians
        constructor <;> nlinarith [hb.1, hb.2]
      have := Real.sin_sq_add_cos_sq (radians theta)
      nlinarith [pow_pos hc 2]
    rw [mul_pow, mul_pow, ← mul_add, Real.cos_sq_add_sin_sq, mul_one]
    exact hlt

/-- **C97** (coverage). With a spacing `dangle` of at most 1.6 degrees, every direction within 1.6 degrees of the
axis has a direction of the grid beside it: their distances from the axis differ by half the spacing of
the rings at most, and along the ring they are half of `dangle` apart at most.  The spacing of the
rings is 1.6 degrees divided by the whole number of times that `dangle` is contained in it. -/
theorem C97_cover (adc1 adc2 dangle : ℝ) (hd : 0 < dangle) (hd' : dangle ≤ 1.6) (theta phi : ℝ)
    (h0 : 0 ≤ theta) (h1 : theta ≤ 1.6) :
    ∃ q ∈ incomingRays adc1 adc2 dangle, ∃ theta' phi' : ℝ, ∃ turns : ℤ,
      q.u = Real.sin (radians theta') * Real.cos phi' ∧
      q.v = Real.sin (radians theta') * Real.sin phi' ∧
      |theta - theta'| ≤ 1.6 / ⌊1.6 / dangle⌋ / 2 ∧
      theta' * |phi - phi' - turns * (2 * Real.pi)| ≤ dangle / 2 := by
  have hpi := Real.pi_pos
  have hq0 : (0 : ℝ) ≤ 1.6 / dangle := by positivity
  have hN : (1 : ℤ) ≤ ⌊1.6 / dangle⌋ := by
    rw [Int.le_floor]
    rw [le_div_iff₀ hd]
    push_cast
    linarith
  have hNr : (1 : ℝ) ≤ ⌊1.6 / dangle⌋ := by exact_mod_cast hN
  have ht : trunc (1.6 / dangle) = ⌊1.6 / dangle⌋ := by unfold trunc; rw [if_pos hq0]
  obtain ⟨N, hNe⟩ : ∃ N : ℕ, ⌊1.6 / dangle⌋ = (N : ℤ) := ⟨_, (Int.toNat_of_nonneg (by omega)).symm⟩
  rw [hNe] at hN hNr ht ⊢
  push_cast at hNr ⊢
  have hn : (trunc (1.6 / dangle) + 1).toNat = N + 1 := by rw [ht]; omega
  -- the ring
  have hs : (0 : ℝ) < 1.6 / N := by positivity
  obtain ⟨k, hk, hkt⟩ : ∃ k : ℕ, k ≤ N ∧ |theta - k * (1.6 / N)| ≤ 1.6 / N / 2 := by
    have hr := abs_sub_round (theta / (1.6 / N))
    have hx0 : 0 ≤ theta / (1.6 / N) := by positivity
    have hxN : theta / (1.6 / N) ≤ N := by
      rw [div_le_iff₀ hs, mul_div_cancel₀ _ (by linarith)]
      exact h1
    have hr0 : 0 ≤ round (theta / (1.6 / N)) := by
      by_contra hc
      have : (round (theta / (1.6 / N)) : ℝ) ≤ -1 := by exact_mod_cast (by omega)
      have := (abs_le.1 hr).2
      linarith
    have hrN : round (theta / (1.6 / N)) ≤ N := by
      by_contra hc
      have : ((N : ℤ) : ℝ) + 1 ≤ (round (theta / (1.6 / N)) : ℝ) := by exact_mod_cast (by omega)
      have := (abs_le.1 hr).1
      push_cast at *
      linarith
    obtain ⟨k, hk⟩ : ∃ k : ℕ, round (theta / (1.6 / N)) = (k : ℤ) :=
      ⟨_, (Int.toNat_of_nonneg hr0).symm⟩
    rw [hk] at hr hrN
    refine ⟨k, by exact_mod_cast hrN, ?_⟩
    have e : theta - k * (1.6 / N) = (theta / (1.6 / N) - (k : ℤ)) * (1.6 / N) := by
      push_cast
      field_simp
    rw [e, abs_mul, abs_of_pos hs]
    nlinarith
  have hmem : (k : ℝ) * (1.6 / N) ∈ linspace 1.6 (trunc (1.6 / dangle) + 1).toNat := by
    rw [hn]
    unfold linspace
    refine List.mem_map.2 ⟨k, List.mem_range.2 (by omega), ?_⟩
    have : N + 1 ≠ 1 := by
      have : 1 ≤ N := by exact_mod_cast hNr
      omega
    rw [if_neg this]
    push_cast
    rw [add_sub_cancel_right]
  set theta' : ℝ := k * (1.6 / N) with htheta
  have ht0 : 0 ≤ theta' := by positivity
  -- the point on the ring
  have hx : 0 ≤ 2 * Real.pi * theta' / dangle := by positivity
  obtain ⟨n, hne, hnp, hlt⟩ : ∃ n : ℕ, (trunc (2 * Real.pi * theta' / dangle) + 1).toNat = n ∧ 0 < n ∧
      2 * Real.pi * theta' / dangle < n := by
    have e : trunc (2 * Real.pi * theta' / dangle) = ⌊2 * Real.pi * theta' / dangle⌋ := by
      unfold trunc; rw [if_pos hx]
    have hf : 0 ≤ ⌊2 * Real.pi * theta' / dangle⌋ := Int.floor_nonneg.2 hx
    refine ⟨_, rfl, by rw [e]; omega, ?_⟩
    have h2 := Int.lt_floor_add_one (2 * Real.pi * theta' / dangle)
    rw [e]
    have : (((⌊2 * Real.pi * theta' / dangle⌋ + 1).toNat : ℤ) : ℝ) =
        (⌊2 * Real.pi * theta' / dangle⌋ : ℝ) + 1 := by
      rw [Int.toNat_of_nonneg (by omega)]
      push_cast
      rfl
    rw [Int.cast_natCast] at this
    rw [this]
    exact h2
  have hnr : (0 : ℝ) < n := by exact_mod_cast hnp
  set delta : ℝ := 2 * Real.pi / n with hdelta
  have hdp : 0 < delta := by positivity
  have hr := abs_sub_round (phi / delta)
  set j : ℤ := round (phi / delta) with hj
  have hphi : |phi - j * delta| ≤ delta / 2 := by
    have e : phi - j * delta = (phi / delta - j) * delta := by field_simp
    rw [e, abs_mul, abs_of_pos hdp]
    nlinarith
  have hmod := Int.emod_add_mul_ediv j n
  have hm0 := Int.emod_nonneg j (by omega : (n : ℤ) ≠ 0)
  have hm1 := Int.emod_lt_of_pos j (by omega : (0 : ℤ) < n)
  obtain ⟨i, hi⟩ : ∃ i : ℕ, j % (n : ℤ) = (i : ℤ) := ⟨_, (Int.toNat_of_nonneg hm0).symm⟩
  refine ⟨⟨2, Real.sin (radians theta') * Real.cos (i * delta),
    Real.sin (radians theta') * Real.sin (i * delta), adc1, adc2⟩, ?_, theta', i * delta,
    j / (n : ℤ), rfl, rfl, hkt, ?_⟩
  · unfold incomingRays
    refine List.mem_flatMap.2 ⟨theta', hmem, ?_⟩
    unfold ring
    dsimp only
    rw [hne]
    exact List.mem_map.2 ⟨i, List.mem_range.2 (by omega), rfl⟩
  · have e : phi - i * delta - ((j / (n : ℤ) : ℤ) : ℝ) * (2 * Real.pi) = phi - j * delta := by
      have h2 : 2 * Real.pi = n * delta := by rw [hdelta]; field_simp
      have h3 : (j : ℝ) = i + n * ((j / (n : ℤ) : ℤ) : ℝ) := by
        rw [hi] at hmod
        exact_mod_cast hmod.symm
      rw [h2, h3]
      ring
    rw [e]
    have h4 : theta' * delta ≤ dangle := by
      rw [div_lt_iff₀ hd] at hlt
      rw [hdelta, mul_div_assoc', div_le_iff₀ hnr]
      nlinarith
    nlinarith [mul_le_mul_of_nonneg_left hphi ht0]

/-- **C97** (finding). The rings are not closer than `dangle` but farther apart than it, whenever 1.6 is not a
multiple of it; with `dangle` above 1.6 there is only the axis. -/
theorem C97_rings (adc1 adc2 dangle : ℝ) (hd : 0 < dangle) :
    (dangle ≤ 1.6 → dangle ≤ 1.6 / ⌊1.6 / dangle⌋) ∧
    (1.6 < dangle → incomingRays adc1 adc2 dangle = [⟨2, 0, 0, adc1, adc2⟩]) := by
  constructor
  · intro h
    have hN : (1 : ℤ) ≤ ⌊1.6 / dangle⌋ := by
      rw [Int.le_floor, le_div_iff₀ hd]
      push_cast
      linarith
    have hNr : (1 : ℝ) ≤ ⌊1.6 / dangle⌋ := by exact_mod_cast hN
    rw [le_div_iff₀ (by linarith)]
    have := Int.floor_le (1.6 / dangle)
    rw [le_div_iff₀ hd] at this
    linarith
  · intro h
    have hf : ⌊1.6 / dangle⌋ = 0 := by
      rw [Int.floor_eq_zero_iff]
      constructor
      · positivity
      · rw [div_lt_one hd]; exact h
    have ht : trunc (1.6 / dangle) = 0 := by
      unfold trunc
      rw [if_pos (by positivity), hf]
    have ht0 : trunc 0 = 0 := by unfold trunc; simp
    unfold incomingRays
    rw [ht]
    simp [linspace, ring, radians, ht0]

/-- The spacing 0.2: eight rings beside the axis. -/
example : ∃ q ∈ incomingRays 10 (-10) 0.2, ∃ theta' phi' : ℝ, ∃ turns : ℤ,
    q.u = Real.sin (radians theta') * Real.cos phi' ∧
    q.v = Real.sin (radians theta') * Real.sin phi' ∧
    |0.93 - theta'| ≤ 1.6 / ⌊(1.6 : ℝ) / 0.2⌋ / 2 ∧
    theta' * |1 - phi' - turns * (2 * Real.pi)| ≤ 0.2 / 2 :=
  C97_cover 10 (-10) 0.2 (by norm_num) (by norm_num) 0.93 1 (by norm_num) (by norm_num)

/-- **C97** (table of run.py). The rows for one setting of the corrector: one for each direction of the grid, in
its order, with opposite angles of the two parts, the wavelength 4860 Å, and the mean point at which the
rays of the star arrive. -/
theorem C97_rows (num : PyStr → Option ℝ) (files : Files) (adc2 : ℝ) (rows : List OutRow) :
    work num files adc2 = .ok rows ↔ List.Forall₂ (fun q row =>
      ∃ r, getNine num files [q] = .ok r ∧ row = ⟨-adc2, adc2, q.u, q.v, r.ave, 4860⟩)
      (incomingRays (-adc2) adc2 0.1) rows := by
  have hg := C97_grid (-adc2) adc2 0.1
  have hnine : ∀ q r, getNine num files [q] = .ok r → r.adc1 = q.adc1 ∧ r.adc2 = q.adc2 := by
    intro q r h
    unfold getNine at h
    simp only [bind_iff] at h
    obtain ⟨S, h1, R, h2, m, h3, T, h4, lists, h5, xa, a1, ya, a2, za, a3, xr, a4, yr, a5, zr, a6, h7⟩ := h
    rw [← Except.ok.inj h7]
    exact ⟨rfl, rfl⟩
  unfold work
  dsimp only
  generalize incomingRays (-adc2) adc2 0.1 = l at hg ⊢
  simp only [bind_iff]
  have hw : ∀ l' : List Wuv, (∀ q ∈ l', item refwave (trunc q.w) = .ok 4860) →
      l'.mapM (fun q => item refwave (trunc q.w)) = .ok (l'.map fun _ => 4860) := by
    intro l' h
    rw [mapM_iff, List.forall₂_map_right_iff, List.forall₂_same]
    exact h
  have hw := hw l fun q hq => (hg q hq).2.2.2.1
  have core : ∀ (a1 a2 : ℝ) (out : List Nine), List.Forall₂ (fun q r => getNine num files [q] = .ok r) l out →
      List.Forall₂ (fun q row => ∃ r, getNine num files [q] = .ok r ∧
        row = (⟨a1, a2, q.u, q.v, r.ave, 4860⟩ : OutRow)) l
        (List.zipWith (fun (qn : Wuv × Nine) w => (⟨a1, a2, qn.1.u, qn.1.v, qn.2.ave, w⟩ : OutRow))
          (l.zip out) (l.map fun _ => 4860)) := by
    intro a1 a2 out h
    clear hg hw
    induction h with
    | nil => exact .nil
    | cons h1 _ ih => exact .cons ⟨_, h1, rfl⟩ ih
  have hlast : ∀ out : List Nine, List.Forall₂ (fun q r => getNine num files [q] = .ok r) l out →
      (out.getLast?.map Nine.adc1).getD (-adc2) = -adc2 ∧
      (out.getLast?.map Nine.adc2).getD adc2 = adc2 := by
    intro out h
    cases hl : out.getLast? with
    | none => exact ⟨rfl, rfl⟩
    | some r =>
      obtain ⟨q, hq, hr⟩ := mem_right h r (List.mem_of_getLast? hl)
      have := hnine q r hr
      have hgq := hg q hq
      exact ⟨this.1.trans hgq.1, this.2.trans hgq.2.1⟩
  constructor
  · rintro ⟨out, h1, wave, h2, h3⟩
    rw [mapM_iff] at h1
    rw [hw] at h2
    obtain rfl := Except.ok.inj h2
    rw [← Except.ok.inj h3, (hlast out h1).1, (hlast out h1).2]
    exact core _ _ out h1
  · intro h
    obtain ⟨out, ho⟩ : ∃ out, List.Forall₂ (fun q r => getNine num files [q] = .ok r) l out := by
      clear hg hw core hlast
      induction h with
      | nil => exact ⟨[], .nil⟩
      | cons h1 _ ih =>
        obtain ⟨r, hr, _⟩ := h1
        obtain ⟨out, ho⟩ := ih
        exact ⟨r :: out, .cons hr ho⟩
    refine ⟨out, (mapM_iff _ _ _).2 ho, _, hw, ?_⟩
    rw [(hlast out ho).1, (hlast out ho).2]
    show Except.ok _ = _
    congr 1
    have hc := core (-adc2) adc2 out ho
    generalize List.zipWith _ _ _ = rows' at hc ⊢
    clear hw core hlast hg ho
    induction h generalizing rows' with
    | nil => cases hc; rfl
    | cons h1 _ ih =>
      cases hc with
      | cons h2 hc =>
        rw [ih _ hc]
        obtain ⟨r, hr, rfl⟩ := h1
        obtain ⟨r', hr', rfl⟩ := h2
        obtain rfl := Except.ok.inj (hr.symm.trans hr')
        rfl

/-- **C97** (settings of run.py). The table has the rows of the nineteen settings 0, 10, ..., 180 degrees. -/
theorem C97_settings (num : PyStr → Option ℝ) (files : Files) (rows : List OutRow) :
    table num files = .ok rows ↔ ∃ parts, List.Forall₂ (fun (k : ℕ) part =>
      work num files (10 * k) = .ok part) (List.range 19) parts ∧ rows = parts.flatten := by
  unfold table linspace
  rw [bind_iff]
  have e : ∀ k : ℕ, (if (19 : ℕ) = 1 then (0 : ℝ) else k * (180 / ((19 : ℕ) - 1))) = 10 * k := by
    intro k
    rw [if_neg (by norm_num)]
    push_cast
    ring
  simp only [e]
  constructor
  · rintro ⟨parts, h1, h2⟩
    rw [mapM_iff, List.forall₂_map_left_iff] at h1
    exact ⟨parts, h1, (Except.ok.inj h2).symm⟩
  · rintro ⟨parts, h1, rfl⟩
    exact ⟨parts, by rw [mapM_iff, List.forall₂_map_left_iff]; exact h1, rfl⟩

end Verif.Props.RayRun
