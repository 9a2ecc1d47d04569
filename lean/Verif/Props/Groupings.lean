import Verif.Model.Groupings
import Verif.Props.Match
import Verif.Props.RayRun
import Verif.Lemmas.ZhaoBurge
import Verif.Lemmas.Sort

/-!
# C102: listing of possible matches
-/

namespace Verif.Props.Groupings
open Verif.Py Verif.Model.Match Verif.Model.MatchPositioners Verif.Model.Groupings Verif.Props Verif.Props.RayRun

/-- The pairs within a radius, as the KD tree reports them. -/
def IsBall {n m : ℕ} (ball : (Fin n → ℝ × ℝ) → (Fin m → ℝ × ℝ) → ℝ → Fin n → List (Fin m)) : Prop :=
  ∀ p q rad i, (ball p q rad i).Nodup ∧ ∀ j, j ∈ ball p q rad i ↔ dist2 (p i) (q j) ≤ rad

/-- Sorted by name. -/
def IsSort {κ : Type} [LinearOrder κ] {M : ℕ} (s : (Fin M → κ) → List (Fin M) → List (Fin M)) : Prop :=
  ∀ key l, (s key l).Perm l ∧ ((s key l).map key).Pairwise (· ≤ ·)

/-- Every element of the set once. -/
def IsVisit {F : ℕ} (v : Finset (Fin F) → List (Fin F)) : Prop :=
  ∀ S, (v S).Nodup ∧ ∀ f, f ∈ v S ↔ f ∈ S

noncomputable example : ∃ ball : (Fin 2 → ℝ × ℝ) → (Fin 3 → ℝ × ℝ) → ℝ → Fin 2 → List (Fin 3), IsBall ball := by
  classical
  refine ⟨fun p q rad i => (List.finRange 3).filter fun j => dist2 (p i) (q j) ≤ rad, fun p q rad i => ⟨?_, ?_⟩⟩
  · exact (List.nodup_finRange 3).filter _
  · intro j; simp

example : ∃ v : Finset (Fin 3) → List (Fin 3), IsVisit v := by
  refine ⟨fun S => (List.finRange 3).filter fun f => f ∈ S, fun S => ⟨(List.nodup_finRange 3).filter _, fun f => by simp⟩⟩

example : ∃ s : (Fin 3 → ℤ) → List (Fin 3) → List (Fin 3), IsSort s := by
  refine ⟨fun key l => pySort key l, fun key l => ⟨?_, ?_⟩⟩
  · exact Verif.Lemmas.perm_pySort key l
  · rw [List.pairwise_map]; exact Verif.Lemmas.sorted_pySort key l

/-- **C102.** `match2d` lists exactly the pairs of points not farther apart than the radius, each once and with its distance, in the order of the first list. -/
theorem C102_match2d {n m : ℕ} {ball : (Fin n → ℝ × ℝ) → (Fin m → ℝ × ℝ) → ℝ → Fin n → List (Fin m)} (hb : IsBall ball)
    (p : Fin n → ℝ × ℝ) (q : Fin m → ℝ × ℝ) (rad : ℝ) :
    ((match2d ball p q rad).map fun t => (t.1, t.2.1)).Nodup ∧
    (∀ i j d, (i, j, d) ∈ match2d ball p q rad ↔
      d = Real.sqrt (((p i).1 - (q j).1) ^ 2 + ((p i).2 - (q j).2) ^ 2) ∧ d ≤ rad) ∧
    ((match2d ball p q rad).map Prod.fst).Pairwise (· ≤ ·) := by
  refine ⟨?_, ?_, ?_⟩
  · unfold match2d
    rw [List.map_flatMap, List.nodup_flatMap]
    refine ⟨fun i _ => ?_, ?_⟩
    · rw [List.map_map]
      refine List.Nodup.map ?_ (hb p q rad i).1
      intro a b h
      simpa using h
    · refine (List.nodup_finRange n).imp ?_
      intro a b hab x h1 h2
      simp only [List.map_map, List.mem_map, Function.comp] at h1 h2
      obtain ⟨j, _, rfl⟩ := h1
      obtain ⟨k, _, hk⟩ := h2
      exact hab (congrArg Prod.fst hk).symm
  · intro i j d
    unfold match2d
    simp only [List.mem_flatMap, List.mem_finRange, true_and, List.mem_map, Prod.mk.injEq]
    constructor
    · rintro ⟨i', j', hj, rfl, rfl, rfl⟩
      exact ⟨rfl, ((hb p q rad i').2 j').1 hj⟩
    · rintro ⟨hd, hr⟩
      exact ⟨i, j, ((hb p q rad i).2 j).2 (hd.symm.le.trans hr), rfl, rfl, hd.symm⟩
  · unfold match2d
    rw [List.map_flatMap, List.pairwise_flatMap]
    refine ⟨fun i _ => ?_, ?_⟩
    · rw [List.map_map]
      rw [List.pairwise_map]
      exact List.pairwise_of_forall (fun _ _ => le_refl i)
    · refine (List.pairwise_lt_finRange n).imp ?_
      intro a b hab x h1 y h2
      simp only [List.map_map, List.mem_map, Function.comp] at h1 h2
      obtain ⟨j, _, rfl⟩ := h1
      obtain ⟨k, _, rfl⟩ := h2
      exact hab.le

variable {F M C : ℕ}

/-- The assignment and its alternatives. -/
def every (assignment : Fin F → Option (Fin M)) (alternatives : Option (List (Fin F → Option (Fin M)))) :
    List (Fin F → Option (Fin M)) := assignment :: alternatives.getD []

/-- The spots that go to positioner `m` in one of the assignments. -/
def candidates (assignment : Fin F → Option (Fin M)) (alternatives : Option (List (Fin F → Option (Fin M)))) (m : Fin M) :
    Finset (Fin F) := Finset.univ.filter fun f => ∃ a ∈ every assignment alternatives, a f = some m

/-- The dictionary `d` records the pairs of `P`. -/
def Records (d : Dict (Fin M) (Finset (Fin F))) (P : Fin F → Fin M → Prop) : Prop :=
  d.keys.Nodup ∧ (∀ m S, d.get? m = some S → S.Nonempty ∧ ∀ f, f ∈ S ↔ P f m) ∧ ∀ m, d.get? m = none → ∀ f, ¬ P f m

theorem records_add (a : Fin F → Option (Fin M)) (d : Dict (Fin M) (Finset (Fin F))) (P : Fin F → Fin M → Prop) (h : Records d P)
    (f : Fin F) : Records (addSpot a d f) (fun f' m => P f' m ∨ (f' = f ∧ a f = some m)) := by
  obtain ⟨h1, h2, h3⟩ := h
  unfold addSpot
  cases ha : a f with
  | none => simpa [Records] using ⟨h1, h2, h3⟩
  | some m =>
    refine ⟨Dict.nodup_keys_set _ _ _ h1, ?_, ?_⟩
    · intro m' S hS
      rw [Dict.get?_set] at hS
      split_ifs at hS with hm
      · subst hm
        obtain rfl := Option.some.inj hS
        refine ⟨⟨f, by simp⟩, fun f' => ?_⟩
        rw [Finset.mem_union, Finset.mem_singleton]
        cases hg : d.get? m with
        | none =>
          have := h3 m hg f'
          simp [this]
        | some T =>
          have := (h2 m T hg).2 f'
          simp [this]
      · obtain ⟨i1, i2⟩ := h2 m' S hS
        refine ⟨i1, fun f' => ?_⟩
        rw [i2]
        constructor
        · exact Or.inl
        · rintro (h | ⟨_, h⟩)
          · exact h
          · exact absurd (Option.some.inj h) hm
    · intro m' hn f'
      rw [Dict.get?_set] at hn
      split_ifs at hn with hm
      rintro (h | ⟨_, h⟩)
      · exact h3 m' hn f' h
      · exact hm (Option.some.inj h)

theorem records_congr {d : Dict (Fin M) (Finset (Fin F))} {P Q : Fin F → Fin M → Prop} (h : Records d P) (e : ∀ f m, P f m ↔ Q f m) :
    Records d Q := by
  have : P = Q := by funext f m; exact propext (e f m)
  rwa [← this]

theorem records_row (a : Fin F → Option (Fin M)) (l : List (Fin F)) (d : Dict (Fin M) (Finset (Fin F))) (P : Fin F → Fin M → Prop)
    (h : Records d P) : Records (l.foldl (addSpot a) d) (fun f m => P f m ∨ (f ∈ l ∧ a f = some m)) := by
  induction l generalizing d P with
  | nil => exact records_congr h (by simp)
  | cons x t ih =>
    refine records_congr (ih _ _ (records_add a d P h x)) ?_
    intro f m
    rw [List.mem_cons]
    constructor
    · rintro ((h | ⟨rfl, h⟩) | h)
      · exact Or.inl h
      · exact Or.inr ⟨Or.inl rfl, h⟩
      · exact Or.inr ⟨Or.inr h.1, h.2⟩
    · rintro (h | ⟨rfl | h, h'⟩)
      · exact Or.inl (Or.inl h)
      · exact Or.inl (Or.inr ⟨rfl, h'⟩)
      · exact Or.inr ⟨h, h'⟩

theorem records_all (as : List (Fin F → Option (Fin M))) (d : Dict (Fin M) (Finset (Fin F))) (P : Fin F → Fin M → Prop)
    (h : Records d P) : Records (as.foldl (fun d a => (List.finRange F).foldl (addSpot a) d) d) (fun f m => P f m ∨ ∃ a ∈ as, a f = some m) := by
  induction as generalizing d P with
  | nil => exact records_congr h (by simp)
  | cons x t ih =>
    refine records_congr (ih _ _ (records_row x (List.finRange F) d P h)) ?_
    intro f m
    simp [or_assoc]

theorem possible_records (assignment : Fin F → Option (Fin M)) (alternatives : Option (List (Fin F → Option (Fin M)))) :
    Records (possible assignment alternatives) (fun f m => ∃ a ∈ every assignment alternatives, a f = some m) := by
  have h0 : Records ([] : Dict (Fin M) (Finset (Fin F))) (fun _ _ => False) := by
    refine ⟨by simp [Dict.keys], ?_, fun _ _ _ => id⟩
    intro m S h
    simp [Dict.get?] at h
  have e : possible assignment alternatives =
      (every assignment alternatives).foldl (fun d a => (List.finRange F).foldl (addSpot a) d) [] := by
    cases alternatives <;> rfl
  rw [e]
  exact records_congr (records_all (every assignment alternatives) [] _ h0) (by simp)

/-- **C102.** `possible_assignments_dict`: the keys are the positioners some spot goes to, in the assignment or in an alternative, each once; its value is the set of all these spots. -/
theorem C102_possible (assignment : Fin F → Option (Fin M)) (alternatives : Option (List (Fin F → Option (Fin M)))) :
    (possible assignment alternatives).keys.Nodup ∧
    ∀ m S, (possible assignment alternatives).get? m = some S ↔ S = candidates assignment alternatives m ∧ S.Nonempty := by
  obtain ⟨h1, h2, h3⟩ := possible_records assignment alternatives
  refine ⟨h1, fun m S => ⟨fun h => ?_, ?_⟩⟩
  · obtain ⟨i1, i2⟩ := h2 m S h
    refine ⟨?_, i1⟩
    ext f
    rw [i2]
    simp [candidates]
  · rintro ⟨rfl, f, hf⟩
    have hP : ∃ a ∈ every assignment alternatives, a f = some m := by simpa [candidates] using hf
    cases hg : (possible assignment alternatives).get? m with
    | none => exact absurd hP (h3 m hg f)
    | some T =>
      obtain ⟨_, i2⟩ := h2 m T hg
      congr 1
      ext f'
      rw [i2]
      simp [candidates]

example : candidates (F := 3) (M := 2) (fun f => if f = 0 then some 1 else none) (some [fun f => if f = 2 then some 1 else none]) 1 = {0, 2} := by
  decide

/-! ## The elbow -/

theorem dist2_sq (p q : ℝ × ℝ) : dist2 p q ^ 2 = (p.1 - q.1) ^ 2 + (p.2 - q.2) ^ 2 := by
  unfold dist2
  exact Real.sq_sqrt (by positivity)

theorem dist2_nonneg (p q : ℝ × ℝ) : 0 ≤ dist2 p q := Real.sqrt_nonneg _

/-- The cosine is one when the arms reach the spot. -/
theorem cos_le {r1 r2 d : ℝ} (h1 : 0 < r1) (h2 : 0 ≤ r2) (hd : 0 < d) (ha : d < r1 + r2) (hb : |r1 - r2| ≤ d) :
    |(d ^ 2 + r1 ^ 2 - r2 ^ 2) / (2 * d * r1)| ≤ 1 := by
  have hp : 0 < 2 * d * r1 := by positivity
  rw [abs_le] at hb
  rw [abs_le, le_div_iff₀ hp, div_le_iff₀ hp]
  constructor <;> nlinarith

theorem third {r1 r2 : ℝ} (h1 : 0 ≤ r1) (h2 : 0 ≤ r2) (spot centre : ℝ × ℝ) (ha : dist2 spot centre < r1 + r2)
    (hb : |r1 - r2| ≤ dist2 spot centre) (hd : dist2 spot centre ≠ 0) :
    ∃ e : ℝ × ℝ, elbow r1 r2 spot centre = .ok (some e) ∧
      (e.1 - centre.1) ^ 2 + (e.2 - centre.2) ^ 2 = r1 ^ 2 ∧ (spot.1 - e.1) ^ 2 + (spot.2 - e.2) ^ 2 = r2 ^ 2 ∧
      0 ≤ (spot.1 - centre.1) * (e.2 - centre.2) - (spot.2 - centre.2) * (e.1 - centre.1) := by
  have hd0 : 0 < dist2 spot centre := lt_of_le_of_ne (dist2_nonneg _ _) (Ne.symm hd)
  have hr1 : 0 < r1 := by
    rcases h1.lt_or_eq with h | h
    · exact h
    · exfalso
      rw [← h, zero_sub, abs_neg, abs_of_nonneg h2] at hb
      linarith
  have hc := cos_le hr1 h2 hd0 ha hb
  have hp : (2 * dist2 spot centre * r1) ≠ 0 := by positivity
  obtain ⟨c, hcd⟩ : ∃ c, c = (dist2 spot centre ^ 2 + r1 ^ 2 - r2 ^ 2) / (2 * dist2 spot centre * r1) := ⟨_, rfl⟩
  obtain ⟨b, hbd⟩ : ∃ b, b = atan2 (spot.2 - centre.2) (spot.1 - centre.1) := ⟨_, rfl⟩
  have hx : dist2 spot centre * Real.cos b = spot.1 - centre.1 := by
    rw [hbd, ← (Verif.Lemmas.ZhaoBurge.polar (spot.1 - centre.1) (spot.2 - centre.2)).1]
    unfold dist2
    rw [(Verif.Lemmas.ZhaoBurge.polar (spot.1 - centre.1) (spot.2 - centre.2)).1, pow_two, pow_two]
    exact (Verif.Lemmas.ZhaoBurge.polar (spot.1 - centre.1) (spot.2 - centre.2)).1
  have hy : dist2 spot centre * Real.sin b = spot.2 - centre.2 := by
    rw [hbd]
    unfold dist2
    rw [pow_two, pow_two]
    exact (Verif.Lemmas.ZhaoBurge.polar (spot.1 - centre.1) (spot.2 - centre.2)).2
  rw [← hcd] at hc
  have hcos : Real.cos (Real.arccos c) = c := Real.cos_arccos (abs_le.1 hc).1 (abs_le.1 hc).2
  have hsin : 0 ≤ Real.sin (Real.arccos c) := Real.sin_nonneg_of_nonneg_of_le_pi (Real.arccos_nonneg c) (Real.arccos_le_pi c)
  have hmul : c * (2 * dist2 spot centre * r1) = dist2 spot centre ^ 2 + r1 ^ 2 - r2 ^ 2 := by
    rw [hcd, div_mul_cancel₀ _ hp]
  refine ⟨(centre.1 + r1 * Real.cos (b + Real.arccos c), centre.2 + r1 * Real.sin (b + Real.arccos c)), ?_, ?_⟩
  · unfold elbow
    dsimp only
    rw [if_neg (not_le.2 ha), if_neg (not_lt.2 hb), if_neg hp, ← hcd, if_neg (not_lt.2 hc), ← hbd]
  · obtain ⟨s, hs⟩ : ∃ s, s = Real.arccos c := ⟨_, rfl⟩
    rw [← hs] at hcos hsin ⊢
    have e1 := Real.sin_sq_add_cos_sq (b + s)
    have e2 := Real.sin_sq_add_cos_sq b
    have e3 : dist2 spot centre ^ 2 = (spot.1 - centre.1) ^ 2 + (spot.2 - centre.2) ^ 2 := dist2_sq _ _
    refine ⟨?_, ?_, ?_⟩
    · dsimp only
      linear_combination r1 ^ 2 * e1
    · dsimp only
      have f1 : spot.1 - (centre.1 + r1 * Real.cos (b + s)) = dist2 spot centre * Real.cos b - r1 * Real.cos (b + s) := by rw [hx]; ring
      have f2 : spot.2 - (centre.2 + r1 * Real.sin (b + s)) = dist2 spot centre * Real.sin b - r1 * Real.sin (b + s) := by rw [hy]; ring
      have f3 : Real.cos b * Real.cos (b + s) + Real.sin b * Real.sin (b + s) = c := by
        rw [Real.cos_add, Real.sin_add, ← hcos]
        linear_combination Real.cos s * e2
      rw [f1, f2]
      linear_combination dist2 spot centre ^ 2 * e2 + r1 ^ 2 * e1 - 2 * dist2 spot centre * r1 * f3 - hmul
    · dsimp only
      rw [← hx, ← hy]
      have : dist2 spot centre * Real.cos b * (centre.2 + r1 * Real.sin (b + s) - centre.2) -
          dist2 spot centre * Real.sin b * (centre.1 + r1 * Real.cos (b + s) - centre.1) = dist2 spot centre * r1 * Real.sin s := by
        rw [Real.cos_add, Real.sin_add]
        linear_combination dist2 spot centre * r1 * Real.sin s * e2
      rw [this]
      positivity

/-- **C102.** The elbow for arms `r1` and `r2`. A spot out of reach, or at full reach: the point that divides the way from the centre to the spot as `r1` to `r2`. A spot too close to the centre: 3 mm in x from the centre. Otherwise, if the spot is not at the centre: a point at the distance `r1` from the centre and `r2` from the spot. The exception is never raised. -/
theorem C102_elbow {r1 r2 : ℝ} (h1 : 0 ≤ r1) (h2 : 0 ≤ r2) (spot centre : ℝ × ℝ) :
    (0 < r1 + r2 → r1 + r2 ≤ dist2 spot centre → elbow r1 r2 spot centre =
      .ok (some (centre.1 + r1 / (r1 + r2) * (spot.1 - centre.1), centre.2 + r1 / (r1 + r2) * (spot.2 - centre.2)))) ∧
    (dist2 spot centre < |r1 - r2| → elbow r1 r2 spot centre = .ok (some (centre.1 + 3, centre.2))) ∧
    (dist2 spot centre < r1 + r2 → |r1 - r2| ≤ dist2 spot centre → spot ≠ centre →
      ∃ e : ℝ × ℝ, elbow r1 r2 spot centre = .ok (some e) ∧ dist2 e centre = r1 ∧ dist2 spot e = r2) ∧
    (elbow r1 r2 spot centre = .ok none ↔ r1 = r2 ∧ (r1 = 0 ∨ spot = centre)) ∧
    ∃ p, elbow r1 r2 spot centre = .ok p := by
  have hd := dist2_nonneg spot centre
  have hz : dist2 spot centre = 0 ↔ spot = centre := by
    constructor
    · intro h
      have := dist2_sq spot centre
      rw [h] at this
      have a1 : spot.1 - centre.1 = 0 := by nlinarith [sq_nonneg (spot.1 - centre.1), sq_nonneg (spot.2 - centre.2)]
      have a2 : spot.2 - centre.2 = 0 := by nlinarith [sq_nonneg (spot.1 - centre.1), sq_nonneg (spot.2 - centre.2)]
      exact Prod.ext (by linarith) (by linarith)
    · rintro rfl
      unfold dist2
      simp
  have habs : |r1 - r2| ≤ r1 + r2 := by
    rw [abs_le]; constructor <;> linarith
  have A : 0 < r1 + r2 → r1 + r2 ≤ dist2 spot centre → elbow r1 r2 spot centre =
      .ok (some (centre.1 + r1 / (r1 + r2) * (spot.1 - centre.1), centre.2 + r1 / (r1 + r2) * (spot.2 - centre.2))) := by
    intro hp hr
    unfold elbow
    dsimp only
    rw [if_pos hr, if_neg hp.ne']
    congr 2
    refine Prod.ext ?_ ?_ <;> · dsimp only; field_simp; ring
  have A0 : r1 + r2 = 0 → elbow r1 r2 spot centre = .ok none := by
    intro hp
    unfold elbow
    dsimp only
    rw [if_pos (hp ▸ hd), if_pos hp]
  have B : dist2 spot centre < |r1 - r2| → elbow r1 r2 spot centre = .ok (some (centre.1 + 3, centre.2)) := by
    intro h
    unfold elbow
    dsimp only
    rw [if_neg (by linarith), if_pos h, add_zero]
  have C' : dist2 spot centre < r1 + r2 → |r1 - r2| ≤ dist2 spot centre → spot ≠ centre →
      ∃ e : ℝ × ℝ, elbow r1 r2 spot centre = .ok (some e) ∧ dist2 e centre = r1 ∧ dist2 spot e = r2 := by
    intro ha hb hne
    obtain ⟨e, i1, i2, i3, _⟩ := third h1 h2 spot centre ha hb (fun h => hne (hz.1 h))
    refine ⟨e, i1, ?_, ?_⟩
    · unfold dist2; rw [i2]; exact Real.sqrt_sq h1
    · unfold dist2; rw [i3]; exact Real.sqrt_sq h2
  have D : dist2 spot centre < r1 + r2 → |r1 - r2| ≤ dist2 spot centre → spot = centre → r1 = r2 ∧ elbow r1 r2 spot centre = .ok none := by
    intro ha hb he
    have h0 := hz.2 he
    have heq : r1 = r2 := by
      rw [h0] at hb
      have := abs_nonpos_iff.1 hb
      linarith
    refine ⟨heq, ?_⟩
    unfold elbow
    dsimp only
    rw [if_neg (not_le.2 ha), if_neg (not_lt.2 hb), h0, if_pos (by ring), if_pos (by rw [heq]; ring)]
  refine ⟨A, B, C', ?_, ?_⟩
  · constructor
    · intro h
      by_cases hr : r1 + r2 ≤ dist2 spot centre
      · rcases (add_nonneg h1 h2).lt_or_eq with hp | hp
        · rw [A hp hr] at h; simp at h
        · have : r1 = 0 := by linarith
          have : r2 = 0 := by linarith
          subst r1 r2
          exact ⟨rfl, Or.inl rfl⟩
      · rw [not_le] at hr
        by_cases hb : dist2 spot centre < |r1 - r2|
        · rw [B hb] at h; simp at h
        · rw [not_lt] at hb
          by_cases he : spot = centre
          · exact ⟨(D hr hb he).1, Or.inr he⟩
          · obtain ⟨e, i, _⟩ := C' hr hb he
            rw [i] at h; simp at h
    · rintro ⟨he, h | h⟩
      · exact A0 (by rw [← he, h]; simp)
      · rcases h1.lt_or_eq with hp | hp
        · exact (D (by rw [hz.2 h]; linarith) (by rw [he]; simpa using hd) h).2
        · exact A0 (by rw [← he, ← hp]; simp)
  · by_cases hr : r1 + r2 ≤ dist2 spot centre
    · rcases (add_nonneg h1 h2).lt_or_eq with hp | hp
      · exact ⟨_, A hp hr⟩
      · exact ⟨_, A0 hp.symm⟩
    · rw [not_le] at hr
      by_cases hb : dist2 spot centre < |r1 - r2|
      · exact ⟨_, B hb⟩
      · rw [not_lt] at hb
        by_cases he : spot = centre
        · exact ⟨_, (D hr hb he).2⟩
        · obtain ⟨e, i, _⟩ := C' hr hb he
          exact ⟨_, i⟩

example : |(3 : ℝ) - 3| ≤ dist2 (4, 0) (0, 0) ∧ dist2 (4, 0) (0, 0) < 3 + 3 := by
  have : dist2 (4, 0) (0, 0) = 4 := by
    unfold dist2
    rw [show ((4 : ℝ) - 0) ^ 2 + (0 - 0) ^ 2 = 4 ^ 2 by norm_num, Real.sqrt_sq (by norm_num)]
  rw [this]; norm_num

/-- **C102** (finding). For a positioner with the angles `t` and `p` of its arms (`p` counted from the first arm, as everywhere in desimeter), the printed elbow is the place of the elbow exactly when `sin p ≤ 0`: for the angles between 0 and 180 degrees that positioners use it is the other intersection of the two circles. -/
theorem C102_elbow_side {r1 r2 : ℝ} (h1 : 0 < r1) (h2 : 0 < r2) (t p : ℝ) (centre spot : ℝ × ℝ)
    (hx : spot.1 = centre.1 + r1 * Real.cos t + r2 * Real.cos (t + p)) (hy : spot.2 = centre.2 + r1 * Real.sin t + r2 * Real.sin (t + p))
    (hne : spot ≠ centre) :
    ∃ e, elbow r1 r2 spot centre = .ok (some e) ∧
      (e = (centre.1 + r1 * Real.cos t, centre.2 + r1 * Real.sin t) ↔ Real.sin p ≤ 0) := by
  have q1 := Real.sin_sq_add_cos_sq t
  have q2 := Real.sin_sq_add_cos_sq (t + p)
  have q3 : Real.cos t * Real.cos (t + p) + Real.sin t * Real.sin (t + p) = Real.cos p := by
    rw [Real.cos_add, Real.sin_add]
    linear_combination Real.cos p * q1
  have q4 : Real.cos t * Real.sin (t + p) - Real.sin t * Real.cos (t + p) = Real.sin p := by
    rw [Real.cos_add, Real.sin_add]
    linear_combination Real.sin p * q1
  have hsq : dist2 spot centre ^ 2 = r1 ^ 2 + r2 ^ 2 + 2 * r1 * r2 * Real.cos p := by
    rw [dist2_sq, hx, hy]
    linear_combination r1 ^ 2 * q1 + r2 ^ 2 * q2 + 2 * r1 * r2 * q3
  have hd := dist2_nonneg spot centre
  have hd0 : dist2 spot centre ≠ 0 := by
    intro h
    apply hne
    have := dist2_sq spot centre
    rw [h] at this
    have a1 : spot.1 - centre.1 = 0 := by nlinarith [sq_nonneg (spot.1 - centre.1), sq_nonneg (spot.2 - centre.2)]
    have a2 : spot.2 - centre.2 = 0 := by nlinarith [sq_nonneg (spot.1 - centre.1), sq_nonneg (spot.2 - centre.2)]
    exact Prod.ext (by linarith) (by linarith)
  have hdp : 0 < dist2 spot centre := lt_of_le_of_ne hd (Ne.symm hd0)
  have hr12 : 0 < r1 * r2 := mul_pos h1 h2
  have hle : dist2 spot centre ≤ r1 + r2 := by
    apply le_of_sq_le_sq _ (by linarith)
    nlinarith [Real.cos_le_one p]
  have hge : |r1 - r2| ≤ dist2 spot centre := by
    apply le_of_sq_le_sq _ hd
    rw [sq_abs]
    nlinarith [Real.neg_one_le_cos p]
  rcases hle.lt_or_eq with hlt | heq
  · obtain ⟨e, i1, i2, i3, i4⟩ := third h1.le h2.le spot centre hlt hge hd0
    refine ⟨e, i1, ?_⟩
    obtain ⟨u, hu⟩ : ∃ u, u = e.1 - centre.1 := ⟨_, rfl⟩
    obtain ⟨v, hv⟩ : ∃ v, v = e.2 - centre.2 := ⟨_, rfl⟩
    obtain ⟨X, hX⟩ : ∃ X, X = spot.1 - centre.1 := ⟨_, rfl⟩
    obtain ⟨Y, hY⟩ : ∃ Y, Y = spot.2 - centre.2 := ⟨_, rfl⟩
    have hXv : X = r1 * Real.cos t + r2 * Real.cos (t + p) := by rw [hX, hx]; ring
    have hYv : Y = r1 * Real.sin t + r2 * Real.sin (t + p) := by rw [hY, hy]; ring
    have hD : X ^ 2 + Y ^ 2 = dist2 spot centre ^ 2 := by rw [dist2_sq, hX, hY]
    have j2 : u ^ 2 + v ^ 2 = r1 ^ 2 := by rw [hu, hv, i2]
    have j3 : (X - u) ^ 2 + (Y - v) ^ 2 = r2 ^ 2 := by rw [← i3, hX, hY, hu, hv]; ring
    have j4 : 0 ≤ X * v - Y * u := by rw [hX, hY, hu, hv]; exact i4
    -- the same for the true elbow
    have k2 : (r1 * Real.cos t) ^ 2 + (r1 * Real.sin t) ^ 2 = r1 ^ 2 := by linear_combination r1 ^ 2 * q1
    have k3 : (X - r1 * Real.cos t) ^ 2 + (Y - r1 * Real.sin t) ^ 2 = r2 ^ 2 := by
      rw [hXv, hYv]; linear_combination r2 ^ 2 * q2
    have k4 : X * (r1 * Real.sin t) - Y * (r1 * Real.cos t) = - (r1 * r2 * Real.sin p) := by
      rw [hXv, hYv]; linear_combination -(r1 * r2) * q4
    have hdot : X * u + Y * v = X * (r1 * Real.cos t) + Y * (r1 * Real.sin t) := by linear_combination (j2 - j3 - k2 + k3) / 2
    have hcr : (X * v - Y * u) ^ 2 = (r1 * r2 * Real.sin p) ^ 2 := by
      have l1 : (X * u + Y * v) ^ 2 + (X * v - Y * u) ^ 2 = (X ^ 2 + Y ^ 2) * r1 ^ 2 := by rw [← j2]; ring
      have l2 : (X * (r1 * Real.cos t) + Y * (r1 * Real.sin t)) ^ 2 + (X * (r1 * Real.sin t) - Y * (r1 * Real.cos t)) ^ 2 =
          (X ^ 2 + Y ^ 2) * r1 ^ 2 := by rw [← k2]; ring
      rw [k4, ← hdot] at l2
      linear_combination l1 - l2
    constructor
    · intro he
      have eu : u = r1 * Real.cos t := by rw [hu, he]; ring
      have ev : v = r1 * Real.sin t := by rw [hv, he]; ring
      rw [eu, ev, k4] at j4
      by_contra hc
      rw [not_le] at hc
      have := mul_pos hr12 hc
      linarith
    · intro hs
      have hneg : 0 ≤ - (r1 * r2 * Real.sin p) := neg_nonneg.2 (mul_nonpos_of_nonneg_of_nonpos hr12.le hs)
      have hcross : X * v - Y * u = X * (r1 * Real.sin t) - Y * (r1 * Real.cos t) := by
        rw [k4]
        rw [← neg_sq (r1 * r2 * Real.sin p)] at hcr
        exact (sq_eq_sq₀ j4 hneg).1 hcr
      have hne0 : X ^ 2 + Y ^ 2 ≠ 0 := by rw [hD]; positivity
      have eu : u = r1 * Real.cos t := by
        apply mul_left_cancel₀ hne0
        linear_combination X * hdot - Y * hcross
      have ev : v = r1 * Real.sin t := by
        apply mul_left_cancel₀ hne0
        linear_combination Y * hdot + X * hcross
      refine Prod.ext ?_ ?_
      · dsimp only; linarith
      · dsimp only; linarith
  · have hc1 : Real.cos p = 1 := by
      rw [heq] at hsq
      have : r1 * r2 * (1 - Real.cos p) = 0 := by linear_combination hsq / 2
      rcases mul_eq_zero.1 this with h | h
      · exact absurd h hr12.ne'
      · linarith
    have hs0 : Real.sin p = 0 := by
      have := Real.sin_sq_add_cos_sq p
      rw [hc1] at this
      have : Real.sin p ^ 2 = 0 := by linarith
      exact pow_eq_zero_iff (two_ne_zero) |>.1 this
    refine ⟨_, (C102_elbow h1.le h2.le spot centre).1 (by linarith) heq.ge, ?_⟩
    refine ⟨fun _ => hs0.le, fun _ => ?_⟩
    have hp : r1 + r2 ≠ 0 := by linarith
    have cx : Real.cos (t + p) = Real.cos t := by rw [Real.cos_add, hc1, hs0]; ring
    have cy : Real.sin (t + p) = Real.sin t := by rw [Real.sin_add, hc1, hs0]; ring
    refine Prod.ext ?_ ?_
    · dsimp only
      rw [hx, cx]; field_simp; ring
    · dsimp only
      rw [hy, cy]; field_simp; ring

example : (3 + 3 * Real.cos (0 + Real.pi / 2) : ℝ) ≠ 0 ∧ ¬ Real.sin (Real.pi / 2) ≤ 0 := by
  rw [zero_add, Real.cos_pi_div_two, Real.sin_pi_div_two]; norm_num

/-! ## The lines -/

variable {κ : Type} [LinearOrder κ]

/-- The lengths of the arms of a positioner: those of the last row of the table with its name, nothing without such a row. -/
def ArmsOf (calib : Calib κ C) (v : Fin C → ℝ × ℝ) (device : κ) (r : ℝ × ℝ) : Prop :=
  (∃ j, calib.pos j = device ∧ (∀ j', j < j' → calib.pos j' ≠ device) ∧ r = v j) ∨ ((∀ j, calib.pos j ≠ device) ∧ r = (0, 0))

theorem fold_last {α : Type} (key : Fin C → κ) (dev : Fin M → κ) (v : Fin C → α) (i : Fin M) (ma : List (Fin M)) (mb : List (Fin C))
    (hinj : Function.Injective dev) (hf : List.Forall₂ (fun i j => dev i = key j) ma mb) (hp : mb.Pairwise (· < ·)) (a0 : Fin M → α) :
    (∃ j ∈ mb, key j = dev i ∧ (∀ j' ∈ mb, j < j' → key j' ≠ dev i) ∧
      ((ma.zip mb).foldl (fun a ij => Function.update a ij.1 (v ij.2)) a0) i = v j) ∨
    ((∀ j ∈ mb, key j ≠ dev i) ∧ ((ma.zip mb).foldl (fun a ij => Function.update a ij.1 (v ij.2)) a0) i = a0 i) := by
  induction hf generalizing a0 with
  | nil => right; exact ⟨by simp, rfl⟩
  | cons h1 h2 ih =>
    rename_i x y xs ys
    rw [List.pairwise_cons] at hp
    rw [List.zip_cons_cons, List.foldl_cons]
    rcases ih hp.2 (Function.update a0 x (v y)) with ⟨j, hj, k1, k2, k3⟩ | ⟨k1, k2⟩
    · left
      refine ⟨j, List.mem_cons_of_mem _ hj, k1, ?_, k3⟩
      intro j' hj' hlt
      rcases List.mem_cons.1 hj' with rfl | hj'
      · exact absurd (hp.1 j hj) (not_lt.2 hlt.le)
      · exact k2 j' hj' hlt
    · by_cases hx : x = i
      · subst hx
        left
        refine ⟨y, List.mem_cons_self, h1.symm, ?_, ?_⟩
        · intro j' hj' hlt
          rcases List.mem_cons.1 hj' with rfl | hj'
          · exact absurd hlt (lt_irrefl _)
          · exact k1 j' hj'
        · rw [k2, Function.update_self]
      · right
        refine ⟨?_, ?_⟩
        · intro j hj
          rcases List.mem_cons.1 hj with rfl | hj
          · intro hk
            exact hx (hinj (h1.trans hk))
          · exact k1 j hj
        · rw [k2, Function.update_of_ne (Ne.symm hx)]

/-- **C102.** The table of calibrations: two positioners of one name in the metrology end in a ValueError, a table without the columns LENGTH_R1 and LENGTH_R2 in a KeyError; otherwise every positioner has the lengths of the last row with its name, and none without such a row. -/
theorem C102_arms (metr : Fin M → MetrRow κ) (calib : Calib κ C) :
    (¬ Function.Injective (fun i => (metr i).device) → arms metr calib = .error .valueError) ∧
    (Function.Injective (fun i => (metr i).device) → calib.lengths = none → arms metr calib = .error .keyError) ∧
    ∀ v, Function.Injective (fun i => (metr i).device) → calib.lengths = some v →
      ∃ a, arms metr calib = .ok a ∧ ∀ i, ArmsOf calib v (metr i).device (a i) := by
  refine ⟨?_, ?_, ?_⟩
  · intro h
    unfold arms
    rw [(C32_key_join _ calib.pos).1 h]
  · intro h hn
    obtain ⟨ma, mb, hk, _⟩ := (C32_key_join _ calib.pos).2 h
    unfold arms
    rw [hk]
    dsimp only
    rw [hn]
  · intro v h hv
    obtain ⟨ma, mb, hk, hf, hs, hm⟩ := (C32_key_join _ calib.pos).2 h
    refine ⟨(ma.zip mb).foldl (fun a ij => Function.update a ij.1 (v ij.2)) fun _ => (0, 0), ?_, ?_⟩
    · unfold arms
      rw [hk]
      dsimp only
      rw [hv]
    · intro i
      rcases fold_last calib.pos (fun i => (metr i).device) v i ma mb h hf hs (fun _ => (0, 0)) with ⟨j, _, k1, k2, k3⟩ | ⟨k1, k2⟩
      · left
        refine ⟨j, k1, fun j' hlt he => ?_, k3⟩
        exact k2 j' ((hm j').2 ⟨i, he.symm⟩) hlt he
      · right
        refine ⟨fun j he => ?_, k2⟩
        exact k1 j ((hm j).2 ⟨i, he.symm⟩) he

/-- What is printed in place of the elbow. -/
def ElbowOf (calib : Option (Calib κ C)) (l : Line κ F M) (centre : ℝ × ℝ) : Prop :=
  match calib with
  | none => l.elbow = none
  | some c => ∃ v r e, c.lengths = some v ∧ ArmsOf c v l.device r ∧ elbow r.1 r.2 l.xy centre = .ok e ∧ l.elbow = some e

theorem line_ok {fvc : Fin F → FvcRow} {metr : Fin M → MetrRow κ} {arm : Option (Fin M → ℝ × ℝ)} {m : Fin M} {n : ℕ} {f : Fin F}
    {l : Line κ F M} (h : line fvc metr arm m n f = .ok l) :
    l.positioner = m ∧ l.spot = f ∧ l.device = (metr m).device ∧ l.xy = (fvc f).xy ∧ l.number = n ∧
    (arm = none → l.elbow = none) ∧
    (∀ a, arm = some a → ∃ e, elbow (a m).1 (a m).2 (fvc f).xy (metr m).xy = .ok e ∧ l.elbow = some e) := by
  unfold line at h
  cases arm with
  | none =>
    obtain rfl := Except.ok.inj h
    exact ⟨rfl, rfl, rfl, rfl, rfl, fun _ => rfl, fun a h => nomatch h⟩
  | some a =>
    dsimp only at h
    cases he : elbow (a m).1 (a m).2 (fvc f).xy (metr m).xy with
    | error e => rw [he] at h; cases h
    | ok p =>
      rw [he] at h
      obtain rfl := Except.ok.inj h
      refine ⟨rfl, rfl, rfl, rfl, rfl, (fun h => nomatch h), fun a' h => ?_⟩
      obtain rfl := Option.some.inj h
      exact ⟨p, he, rfl⟩

theorem forall2_map_eq {α β γ : Type} {R : α → β → Prop} {l : List α} {out : List β} (g : β → γ) (f : α → γ) (h : List.Forall₂ R l out)
    (hr : ∀ a b, R a b → g b = f a) : out.map g = l.map f := by
  induction h with
  | nil => rfl
  | cons h1 _ ih => rw [List.map_cons, List.map_cons, ih, hr _ _ h1]

theorem flatten_map_eq {α β γ : Type} {R : α → List β → Prop} {l : List α} {out : List (List β)} (g : β → γ) (f : α → List γ)
    (h : List.Forall₂ R l out) (hr : ∀ a b, R a b → b.map g = f a) : out.flatten.map g = l.flatMap f := by
  induction h with
  | nil => rfl
  | cons h1 _ ih => rw [List.flatten_cons, List.map_append, List.flatMap_cons, ih, hr _ _ h1]

/-- **C102.** The lines of `print_groupings`: one line for every positioner and every spot that goes to it in the assignment or in one of the alternatives, in the order of the names of the positioners; the line has the name of the positioner, the place of the spot, the elbow if a table of calibrations is given, and the number of the spots the positioner may have. -/
theorem C102_lines {sortNames : (Fin M → κ) → List (Fin M) → List (Fin M)} (hs : IsSort sortNames) {visit : Finset (Fin F) → List (Fin F)}
    (hv : IsVisit visit) (fvc : Fin F → FvcRow) (metr : Fin M → MetrRow κ) (assignment : Fin F → Option (Fin M))
    (alternatives : Option (List (Fin F → Option (Fin M)))) (calib : Option (Calib κ C)) (ls : List (Line κ F M))
    (h : printGroupings sortNames visit fvc metr assignment alternatives calib = .ok ls) :
    (ls.map fun l => (l.positioner, l.spot)).Nodup ∧
    (∀ m f, (m, f) ∈ ls.map (fun l => (l.positioner, l.spot)) ↔ ∃ a ∈ assignment :: alternatives.getD [], a f = some m) ∧
    (ls.map fun l => l.device).Pairwise (· ≤ ·) ∧
    ∀ l ∈ ls, l.device = (metr l.positioner).device ∧ l.xy = (fvc l.spot).xy ∧
      l.number = (candidates assignment alternatives l.positioner).card ∧ ElbowOf calib l (metr l.positioner).xy := by
  obtain ⟨hk, hg⟩ := C102_possible assignment alternatives
  unfold printGroupings at h
  rw [bind_iff] at h
  obtain ⟨arm, harm, h⟩ := h
  rw [bind_iff] at h
  obtain ⟨lls, hlls, h⟩ := h
  obtain rfl := Except.ok.inj h
  rw [mapM_iff] at hlls
  obtain ⟨hperm, hsort⟩ := hs (fun m => (metr m).device) (possible assignment alternatives).keys
  obtain ⟨order, ho⟩ : ∃ o, o = sortNames (fun m => (metr m).device) (possible assignment alternatives).keys := ⟨_, rfl⟩
  rw [← ho] at hlls hperm hsort
  have hmemk : ∀ m, m ∈ order ↔ (candidates assignment alternatives m).Nonempty := by
    intro m
    rw [hperm.mem_iff, Dict.mem_keys]
    constructor
    · rintro ⟨S, hS⟩
      obtain ⟨rfl, hn⟩ := (hg m S).1 hS
      exact hn
    · intro hn
      exact ⟨_, (hg m _).2 ⟨rfl, hn⟩⟩
  have hget : ∀ m ∈ order, ((possible assignment alternatives).get? m).getD ∅ = candidates assignment alternatives m := by
    intro m hm
    rw [(hg m _).2 ⟨rfl, (hmemk m).1 hm⟩]
    rfl
  have hcard : ∀ S, (visit S).length = S.card := by
    intro S
    obtain ⟨h1, h2⟩ := hv S
    rw [← List.toFinset_card_of_nodup h1]
    congr 1
    ext f
    rw [List.mem_toFinset, h2]
  -- the lines of one positioner
  have hrow : List.Forall₂ (fun m b => List.Forall₂ (fun f l => line fvc metr arm m (candidates assignment alternatives m).card f = .ok l)
      (visit (candidates assignment alternatives m)) b) order lls := by
    have : ∀ (o : List (Fin M)) (out : List (List (Line κ F M))), (∀ m ∈ o, m ∈ order) →
        List.Forall₂ (fun m b => (visit (((possible assignment alternatives).get? m).getD ∅)).mapM
          (line fvc metr arm m (visit (((possible assignment alternatives).get? m).getD ∅)).length) = .ok b) o out →
        List.Forall₂ (fun m b => List.Forall₂ (fun f l => line fvc metr arm m (candidates assignment alternatives m).card f = .ok l)
          (visit (candidates assignment alternatives m)) b) o out := by
      intro o out hsub hf
      induction hf with
      | nil => exact List.Forall₂.nil
      | cons h1 _ ih =>
        refine List.Forall₂.cons ?_ (ih fun m hm => hsub m (List.mem_cons_of_mem _ hm))
        rw [hget _ (hsub _ List.mem_cons_self), hcard, mapM_iff] at h1
        exact h1
    exact this order lls (fun _ => id) hlls
  have epair : lls.flatten.map (fun l => (l.positioner, l.spot)) =
      order.flatMap fun m => (visit (candidates assignment alternatives m)).map fun f => (m, f) := by
    refine flatten_map_eq _ _ hrow ?_
    intro m b hb
    exact forall2_map_eq _ _ hb fun f l hl => by rw [(line_ok hl).1, (line_ok hl).2.1]
  have edev : lls.flatten.map (fun l => l.device) =
      order.flatMap fun m => (visit (candidates assignment alternatives m)).map fun _ => (metr m).device := by
    refine flatten_map_eq _ _ hrow ?_
    intro m b hb
    exact forall2_map_eq _ _ hb fun f l hl => (line_ok hl).2.2.1
  refine ⟨?_, ?_, ?_, ?_⟩
  · rw [epair, List.nodup_flatMap]
    refine ⟨fun m _ => ?_, ?_⟩
    · refine List.Nodup.map ?_ (hv _).1
      intro a b hab
      simpa using hab
    · have hnd : order.Nodup := hperm.nodup_iff.2 hk
      refine hnd.imp ?_
      intro a b hab x h1 h2
      simp only [List.mem_map] at h1 h2
      obtain ⟨j, _, rfl⟩ := h1
      obtain ⟨k, _, hk⟩ := h2
      exact hab (congrArg Prod.fst hk).symm
  · intro m f
    rw [epair]
    simp only [List.mem_flatMap, List.mem_map, Prod.mk.injEq]
    constructor
    · rintro ⟨m', _, f', hf', rfl, rfl⟩
      have := ((hv _).2 f').1 hf'
      simpa [candidates, every] using this
    · intro hex
      have hf : f ∈ candidates assignment alternatives m := by simpa [candidates, every] using hex
      exact ⟨m, (hmemk m).2 ⟨f, hf⟩, f, ((hv _).2 f).2 hf, rfl, rfl⟩
  · rw [edev, List.pairwise_flatMap]
    refine ⟨fun m _ => ?_, ?_⟩
    · rw [List.pairwise_map]
      exact List.pairwise_of_forall (fun _ _ => le_refl _)
    · rw [List.pairwise_map] at hsort
      refine hsort.imp ?_
      intro a b hab x h1 y h2
      simp only [List.mem_map] at h1 h2
      obtain ⟨_, _, rfl⟩ := h1
      obtain ⟨_, _, rfl⟩ := h2
      exact hab
  · intro l hl
    obtain ⟨b, hb, hlb⟩ := List.mem_flatten.1 hl
    have hline : ∃ m f, line fvc metr arm m (candidates assignment alternatives m).card f = .ok l := by
      have g1 : ∀ (o : List (Fin M)) (out : List (List (Line κ F M))),
          List.Forall₂ (fun m b => List.Forall₂ (fun f l => line fvc metr arm m (candidates assignment alternatives m).card f = .ok l)
            (visit (candidates assignment alternatives m)) b) o out → b ∈ out →
          ∃ m, List.Forall₂ (fun f l => line fvc metr arm m (candidates assignment alternatives m).card f = .ok l)
            (visit (candidates assignment alternatives m)) b := by
        intro o out hf hmem
        induction hf with
        | nil => cases hmem
        | cons h1 _ ih =>
          rcases List.mem_cons.1 hmem with rfl | hmem
          · exact ⟨_, h1⟩
          · exact ih hmem
      obtain ⟨m, hm⟩ := g1 order lls hrow hb
      have g2 : ∀ (o : List (Fin F)) (out : List (Line κ F M)),
          List.Forall₂ (fun f l => line fvc metr arm m (candidates assignment alternatives m).card f = .ok l) o out → l ∈ out →
          ∃ f, line fvc metr arm m (candidates assignment alternatives m).card f = .ok l := by
        intro o out hf hmem
        induction hf with
        | nil => cases hmem
        | cons h1 _ ih =>
          rcases List.mem_cons.1 hmem with rfl | hmem
          · exact ⟨_, h1⟩
          · exact ih hmem
      exact ⟨m, g2 _ _ hm hlb⟩
    obtain ⟨m, f, hline⟩ := hline
    obtain ⟨rfl, rfl, k3, k4, k5, k6, k7⟩ := line_ok hline
    refine ⟨k3, k4, k5, ?_⟩
    unfold ElbowOf
    cases calib with
    | none =>
      exact k6 (Except.ok.inj harm).symm
    | some c =>
      unfold tableArms at harm
      dsimp only at harm ⊢
      rw [map_ok] at harm
      obtain ⟨a, ha, rfl⟩ := harm
      obtain ⟨e, he1, he2⟩ := k7 a rfl
      obtain ⟨i1, i2, i3⟩ := C102_arms metr c
      have hinj : Function.Injective (fun i => (metr i).device) := by
        by_contra hc
        rw [i1 hc] at ha; cases ha
      cases hl : c.lengths with
      | none => rw [i2 hinj hl] at ha; cases ha
      | some v =>
        obtain ⟨a', ha', harms⟩ := i3 v hinj hl
        rw [ha] at ha'
        obtain rfl := Except.ok.inj ha'
        refine ⟨v, a l.positioner, e, rfl, ?_, ?_, he2⟩
        · rw [k3]; exact harms l.positioner
        · rw [k4]; exact he1

/-- **C102.** The lines are printed, without an exception, if no table of calibrations is given; with a table of arms that are not negative, exactly if no two positioners of the metrology have the same name and the table has the columns LENGTH_R1 and LENGTH_R2. -/
theorem C102_printed {sortNames : (Fin M → κ) → List (Fin M) → List (Fin M)} {visit : Finset (Fin F) → List (Fin F)}
    (fvc : Fin F → FvcRow) (metr : Fin M → MetrRow κ) (assignment : Fin F → Option (Fin M))
    (alternatives : Option (List (Fin F → Option (Fin M)))) :
    (∃ ls, printGroupings (C := C) sortNames visit fvc metr assignment alternatives none = .ok ls) ∧
    ∀ c : Calib κ C, (∀ v, c.lengths = some v → ∀ j, 0 ≤ (v j).1 ∧ 0 ≤ (v j).2) →
      ((∃ ls, printGroupings sortNames visit fvc metr assignment alternatives (some c) = .ok ls) ↔
        Function.Injective (fun i => (metr i).device) ∧ c.lengths.isSome) := by
  have hall : ∀ arm : Option (Fin M → ℝ × ℝ), (∀ a, arm = some a → ∀ m, 0 ≤ (a m).1 ∧ 0 ≤ (a m).2) →
      ∀ m n f, ∃ l, line fvc metr arm m n f = .ok l := by
    intro arm ha m n f
    unfold line
    cases arm with
    | none => exact ⟨_, rfl⟩
    | some a =>
      obtain ⟨p, hp⟩ := (C102_elbow (ha a rfl m).1 (ha a rfl m).2 (fvc f).xy (metr m).xy).2.2.2.2
      dsimp only
      rw [hp]
      exact ⟨_, rfl⟩
  have hmap : ∀ {α β : Type} (g : α → Except PyErr β) (l : List α), (∀ a, ∃ b, g a = .ok b) → ∃ out, l.mapM g = .ok out := by
    intro α β g l hgl
    choose b hb using hgl
    refine ⟨l.map b, ?_⟩
    rw [mapM_iff, List.forall₂_map_right_iff, List.forall₂_same]
    intro a _
    exact hb a
  have hrest : ∀ arm : Option (Fin M → ℝ × ℝ), (∀ a, arm = some a → ∀ m, 0 ≤ (a m).1 ∧ 0 ≤ (a m).2) →
      ∃ lls, ((sortNames (fun m => (metr m).device) (possible assignment alternatives).keys).mapM fun m =>
        (visit (((possible assignment alternatives).get? m).getD ∅)).mapM
          (line fvc metr arm m (visit (((possible assignment alternatives).get? m).getD ∅)).length)) = .ok lls := by
    intro arm ha
    exact hmap _ _ fun m => hmap _ _ fun f => hall arm ha m _ f
  refine ⟨?_, ?_⟩
  · obtain ⟨lls, h⟩ := hrest none (fun a h => by cases h)
    refine ⟨lls.flatten, ?_⟩
    unfold printGroupings
    rw [bind_iff]
    refine ⟨none, rfl, ?_⟩
    rw [bind_iff]
    exact ⟨lls, h, rfl⟩
  · intro c hnn
    obtain ⟨i1, i2, i3⟩ := C102_arms metr c
    constructor
    · rintro ⟨ls, h⟩
      unfold printGroupings at h
      rw [bind_iff] at h
      obtain ⟨arm, harm, -⟩ := h
      unfold tableArms at harm
      dsimp only at harm
      rw [map_ok] at harm
      obtain ⟨a, ha, -⟩ := harm
      have hinj : Function.Injective (fun i => (metr i).device) := by
        by_contra hc
        rw [i1 hc] at ha; cases ha
      refine ⟨hinj, ?_⟩
      cases hl : c.lengths with
      | none => rw [i2 hinj hl] at ha; cases ha
      | some v => rfl
    · rintro ⟨hinj, hsome⟩
      obtain ⟨v, hl⟩ := Option.isSome_iff_exists.1 hsome
      obtain ⟨a, ha, harms⟩ := i3 v hinj hl
      obtain ⟨lls, h⟩ := hrest (some a) (by
        intro a' h m
        obtain rfl := Option.some.inj h
        rcases harms m with ⟨j, _, _, h⟩ | ⟨_, h⟩
        · rw [h]; exact hnn v hl j
        · rw [h]; simp)
      refine ⟨lls.flatten, ?_⟩
      unfold printGroupings
      rw [bind_iff]
      refine ⟨some a, ?_, ?_⟩
      · unfold tableArms
        dsimp only
        rw [ha]; rfl
      · rw [bind_iff]
        exact ⟨lls, h, rfl⟩

example : Function.Injective (fun i : Fin 2 => (⟨0, (i : ℤ), (0, 0)⟩ : MetrRow ℤ).device) := by
  intro a b h
  dsimp only at h
  exact Fin.ext (by exact_mod_cast h)

/-- **C102** (finding). A positioner that is not in the table of calibrations gets an elbow that is not a number, for every spot. -/
theorem C102_uncalibrated {sortNames : (Fin M → κ) → List (Fin M) → List (Fin M)} (hs : IsSort sortNames) {visit : Finset (Fin F) → List (Fin F)}
    (hv : IsVisit visit) (fvc : Fin F → FvcRow) (metr : Fin M → MetrRow κ) (assignment : Fin F → Option (Fin M))
    (alternatives : Option (List (Fin F → Option (Fin M)))) (c : Calib κ C) (ls : List (Line κ F M))
    (h : printGroupings sortNames visit fvc metr assignment alternatives (some c) = .ok ls) (l : Line κ F M) (hl : l ∈ ls)
    (hc : ∀ j, c.pos j ≠ l.device) : l.elbow = some none := by
  obtain ⟨_, _, _, hall⟩ := C102_lines hs hv fvc metr assignment alternatives (some c) ls h
  obtain ⟨_, _, _, v, r, e, _, ha, he, hle⟩ := hall l hl
  rcases ha with ⟨j, hj, _⟩ | ⟨_, rfl⟩
  · exact absurd hj (hc j)
  · rw [((C102_elbow (le_refl 0) (le_refl 0) l.xy (metr l.positioner).xy).2.2.2.1).2 ⟨rfl, Or.inl rfl⟩] at he
    rw [hle, ← Except.ok.inj he]

/-- **C102.** `--petal` keeps the spots that are not farther than the longest reach from some positioner of the petal. -/
theorem C102_petal {n : ℕ} {ball : (Fin F → ℝ × ℝ) → (Fin n → ℝ × ℝ) → ℝ → Fin F → List (Fin n)} (hb : IsBall ball) (fvc : Fin F → FvcRow)
    (centres : Fin n → ℝ × ℝ) (maxlen : ℝ) (f : Fin F) :
    f ∈ petalSpots ball fvc centres maxlen ↔ ∃ i, dist2 (fvc f).xy (centres i) ≤ maxlen := by
  unfold petalSpots
  obtain ⟨_, h, _⟩ := C102_match2d hb (fun f => (fvc f).xy) centres maxlen
  simp only [List.mem_filter, List.mem_finRange, true_and, decide_eq_true_eq, List.mem_map]
  constructor
  · rintro ⟨⟨i, j, d⟩, hm, rfl⟩
    obtain ⟨rfl, hd⟩ := (h i j d).1 hm
    exact ⟨j, hd⟩
  · rintro ⟨i, hi⟩
    exact ⟨(f, i, dist2 (fvc f).xy (centres i)), (h _ _ _).2 ⟨rfl, hi⟩, rfl⟩

/-- **C102** (finding). `--petal` drops spots that `match_positioners` accepts: it allows a tenth of a millimetre more than the length of the arms, here of one positioner whose arms reach `maxlen`; the spot is a little farther than that. -/
theorem C102_petal_drops {maxlen : ℝ} (hm : 0 ≤ maxlen) {x : ℝ} (h1 : maxlen < x) (h2 : x < maxlen + 0.1)
    {ball : (Fin 1 → ℝ × ℝ) → (Fin 1 → ℝ × ℝ) → ℝ → Fin 1 → List (Fin 1)} (hb : IsBall ball) :
    petalSpots ball (fun _ => ⟨0, 0, (x, 0)⟩) (fun _ => (0, 0)) maxlen = [] ∧
    scoreMatrix (fun _ : Fin 1 => ((0 : ℝ), (0 : ℝ))) (fun _ : Fin 1 => (x, (0 : ℝ))) (fun _ => maxlen + 0.1) 0 0 = 1 := by
  have hd : dist2 (x, 0) (0, 0) = x := by
    unfold dist2
    dsimp only
    rw [show (x - 0) ^ 2 + ((0 : ℝ) - 0) ^ 2 = x ^ 2 by ring, Real.sqrt_sq (by linarith)]
  have hd' : dist2 (0, 0) (x, 0) = x := by
    unfold dist2
    dsimp only
    rw [show (0 - x) ^ 2 + ((0 : ℝ) - 0) ^ 2 = x ^ 2 by ring, Real.sqrt_sq (by linarith)]
  constructor
  · rw [List.eq_nil_iff_forall_not_mem]
    intro f hf
    obtain ⟨i, hi⟩ := (C102_petal hb _ _ _ f).1 hf
    dsimp only at hi
    rw [hd] at hi
    linarith
  · unfold scoreMatrix
    dsimp only
    rw [hd', if_pos]
    refine ⟨?_, h2⟩
    have : maxlen + 0.1 ≤ maxArm (fun _ : Fin 1 => maxlen + 0.1) := by
      simp [maxArm]
    linarith

end Verif.Props.Groupings
