import Verif.Model.Pos2ptl
import Verif.Lemmas.Xy2tp
import Verif.Lemmas.Vec

namespace Verif.Lemmas
universe u v
open Verif.Py Verif.Model.Xy2tp Verif.Model.Pos2ptl Verif.Spec

/-- The external ranges used for every positioner are narrower than a turn. -/
theorem width_extRanges (tf pf : ℝ) :
    width (extRanges tf pf).t < 360 ∧ width (extRanges tf pf).p < 360 ∧
    (∀ t, -180 + epsilon ≤ t → t ≤ 180 → InRange (extRanges tf pf).t (t + tf)) ∧
    (∀ p, -20 ≤ p → p ≤ 200 → InRange (extRanges tf pf).p (p + pf)) := by
  have he : 0 < epsilon := by unfold epsilon; positivity
  have he' : epsilon < 1 := by unfold epsilon; norm_num
  unfold width InRange extRanges defaultT defaultP
  dsimp only
  rw [min_eq_left (by linarith), max_eq_right (by linarith), min_eq_left (by linarith),
    max_eq_right (by linarith)]
  refine ⟨by linarith, by linarith, fun t h1 h2 => ⟨by linarith, by linarith⟩,
    fun p h1 h2 => ⟨by linarith, by linarith⟩⟩

/-- `extend_list` of a list that has the right length, or of a one-element list. -/
theorem extendList_range {α : Type*} (n : Nat) (a : Nat → α) :
    extendList ((List.range n).map a) n = .ok ((List.range n).map a) := by
  unfold extendList; simp

theorem extendList_single {α : Type*} (n : Nat) (a : α) :
    extendList [a] n = .ok ((List.range n).map (fun _ => a)) := by
  unfold extendList
  split
  · simp [List.map_const']
  · next h =>
    have : n = 1 := by simpa using (not_not.1 h).symm
    subst this; rfl


theorem bcast2_single {α β γ : Type*} (f : α → β → γ) (n : Nat) (a : Nat → α) (b : β) :
    bcast2 f ((List.range n).map a) [b] = .ok (((List.range n).map a).map (fun x => f x b)) := by
  unfold bcast2
  split
  · next h =>
    have hn : n = 1 := by simpa using h
    subst hn; rfl
  · next h =>
    have hn : n ≠ 1 := by simpa using h
    match n with
    | 0 => rfl
    | 1 => exact absurd rfl hn
    | n + 2 =>
      rw [List.range_succ_eq_map, List.range_succ_eq_map]
      rfl

theorem bind_ok {α β : Type u} {ε : Type v} {m : Except ε α} {k : α → Except ε β} {b : β}
    (h : (m >>= k) = .ok b) : ∃ a, m = .ok a ∧ k a = .ok b := by
  cases m with
  | error e => cases h
  | ok a => exact ⟨a, rfl, h⟩

theorem offset_inverse (u off : List ℝ) (h : off.length = u.length ∨ off.length = 1) :
    ∃ v, addOffset u off = .ok v ∧ addOffset v (off.map (fun o => -o)) = .ok u := by
  by_cases hl : u.length = off.length
  · refine ⟨List.zipWith (· + ·) u off, ?_, ?_⟩
    · unfold addOffset bcast2; rw [if_pos hl]
    · unfold addOffset bcast2
      rw [if_pos (by simp [hl])]
      congr 1
      apply List.ext_getElem
      · simp [hl]
      · intro i h1 h2; simp
  · have h1 : off.length = 1 := by
      rcases h with h | h
      · exact absurd h.symm hl
      · exact h
    obtain ⟨o, rfl⟩ := List.length_eq_one_iff.1 h1
    have hb : ∀ (w : List ℝ) (q : ℝ), w.length ≠ 1 → addOffset w [q] = .ok (w.map (· + q)) := by
      intro w q hw
      unfold addOffset bcast2
      rw [if_neg (by simpa using hw)]
      match w with
      | [] => rfl
      | [_] => exact absurd rfl hw
      | _ :: _ :: _ => rfl
    have hu : u.length ≠ 1 := by simpa using hl
    refine ⟨_, hb u o hu, ?_⟩
    rw [List.map_cons, List.map_nil, hb _ _ (by simpa using hu), List.map_map]
    congr 1
    simp [Function.comp_def]

theorem fmod_pos (a : ℝ) : 0 ≤ fmod a (1 * 360) ∧ fmod a (1 * 360) < 360 := by
  unfold fmod
  have h1 := Int.floor_le (a / (1 * 360))
  have h2 := Int.lt_floor_add_one (a / (1 * 360))
  rw [le_div_iff₀ (by norm_num)] at h1
  rw [div_lt_iff₀ (by norm_num)] at h2
  constructor <;> linarith

theorem fmod_neg (a : ℝ) : fmod a (-1 * 360) ≤ 0 ∧ -360 < fmod a (-1 * 360) := by
  unfold fmod
  have h1 := Int.floor_le (a / (-1 * 360))
  have h2 := Int.lt_floor_add_one (a / (-1 * 360))
  rw [le_div_iff_of_neg (by norm_num)] at h1
  rw [div_lt_iff_of_neg (by norm_num)] at h2
  constructor <;> linarith

theorem sameAngle_fmod_pos (s f : ℝ) : SameAngle (s + fmod (f - s) (1 * 360)) f :=
  ⟨-⌊(f - s) / (1 * 360)⌋, by unfold fmod; push_cast; ring⟩

theorem sameAngle_fmod_neg (s f : ℝ) : SameAngle (s + fmod (f - s) (-1 * 360)) f :=
  ⟨⌊(f - s) / (-1 * 360)⌋, by unfold fmod; ring⟩

theorem fmod_zero_iff (s f : ℝ) : fmod (f - s) 360 = 0 ↔ SameAngle f s := by
  unfold fmod SameAngle
  constructor
  · intro h; exact ⟨⌊(f - s) / 360⌋, by linarith⟩
  · rintro ⟨k, hk⟩
    have : (f - s) / 360 = k := by rw [hk]; ring
    rw [this, Int.floor_intCast, hk]; ring

theorem sign_cases (a : ℝ) :
    (a < 0 ∧ sign a = -1) ∨ (a = 0 ∧ sign a = 0) ∨ (0 < a ∧ sign a = 1) := by
  unfold sign
  rcases lt_trichotomy a 0 with h | h | h
  · left; rw [if_pos h]; exact ⟨h, rfl⟩
  · right; left; subst h; simp
  · right; right; rw [if_neg (by linarith), if_pos h]; exact ⟨h, rfl⟩

open Classical in
theorem deltaAngle1_val (s f d : ℝ) : deltaAngle1 s f d =
    if SameAngle f s then (if d = 0 then f - s else if 0 < d then |f - s| else -|f - s|)
    else (if d = 0 ∨ 0 < d * (f - s) then f - s
      else if 0 < d then fmod (f - s) (1 * 360) else fmod (f - s) (-1 * 360)) := by
  unfold deltaAngle1
  dsimp only
  by_cases hw : SameAngle f s
  · rw [if_pos ((fmod_zero_iff s f).2 hw), if_pos hw]
    rcases sign_cases d with ⟨hd, ed⟩ | ⟨hd, ed⟩ | ⟨hd, ed⟩
    · rw [ed, if_neg (by norm_num), if_neg hd.ne, if_neg (by linarith)]; ring
    · rw [ed, if_pos rfl, if_pos hd]
      rcases sign_cases (f - s) with ⟨hn, en⟩ | ⟨hn, en⟩ | ⟨hn, en⟩
      · rw [en, abs_of_neg hn]; ring
      · rw [en, hn]; simp
      · rw [en, abs_of_pos hn]; ring
    · rw [ed, if_neg (by norm_num), if_neg hd.ne', if_pos hd]; ring
  · rw [if_neg (fun h => hw ((fmod_zero_iff s f).1 h)), if_neg hw]
    have hn0 : f - s ≠ 0 := by
      intro h; exact hw ⟨0, by simp; linarith⟩
    have z1 : ¬ ((-1:ℝ) = 0) := by norm_num
    have z2 : ¬ ((1:ℝ) = 0) := by norm_num
    have z3 : (-1:ℝ) ≠ 1 := by norm_num
    have z4 : (1:ℝ) ≠ -1 := by norm_num
    rcases sign_cases d with ⟨hd, ed⟩ | ⟨hd, ed⟩ | ⟨hd, ed⟩ <;>
      rcases sign_cases (f - s) with ⟨hn, en⟩ | ⟨hn, en⟩ | ⟨hn, en⟩
    · rw [if_pos (show d = 0 ∨ 0 < d * (f - s) from Or.inr (mul_pos_of_neg_of_neg hd hn)), ed, en,
        if_neg z1, if_neg (not_not.2 rfl)]
    · exact absurd hn hn0
    · rw [if_neg (show ¬ (d = 0 ∨ 0 < d * (f - s)) by
        rw [not_or]; exact ⟨hd.ne, by nlinarith⟩), if_neg (show ¬ 0 < d by linarith), ed, en,
        if_neg z1, if_pos z3]
    · rw [if_pos (show d = 0 ∨ 0 < d * (f - s) from Or.inl hd), ed, en, if_pos rfl,
        if_neg (not_not.2 rfl)]
    · exact absurd hn hn0
    · rw [if_pos (show d = 0 ∨ 0 < d * (f - s) from Or.inl hd), ed, en, if_pos rfl,
        if_neg (not_not.2 rfl)]
    · rw [if_neg (show ¬ (d = 0 ∨ 0 < d * (f - s)) by
        rw [not_or]; exact ⟨hd.ne', by nlinarith⟩), if_pos (show 0 < d by linarith), ed, en,
        if_neg z2, if_pos z4]
    · exact absurd hn hn0
    · rw [if_pos (show d = 0 ∨ 0 < d * (f - s) from Or.inr (mul_pos hd hn)), ed, en,
        if_neg z2, if_neg (not_not.2 rfl)]

end Verif.Lemmas
