import Verif.Props.RayCorotate

/-!
# C97: the optics table of DESI

The optics table in the repository is read without error, gives 26 surfaces, and they are laid out
as the theorems about the dispersion corrector need it.
-/

namespace Verif.Props.RayDesi

open Verif.Py Verif.RayTrace
open Verif.Props.RayFrames Verif.Props.RayTurn Verif.Props.RayAdc Verif.Props.RayTables
open Verif.Props.RayCorotate

theorem take_range (R : List (List PyStr)) (n : ℕ) (h : n ≤ R.length) (f : List PyStr → Surf) :
    (R.take n).map f = (List.range n).map fun j => f (R.getD j []) := by
  apply List.ext_getElem
  · simp; omega
  · intro i h1 h2
    rw [List.length_map, List.length_range] at h2
    rw [List.getElem_map, List.getElem_map, List.getElem_take, List.getElem_range,
      List.getD_eq_getElem R _ (by omega)]

section parts
variable (num : PyStr → Option ℝ) (hd r : List PyStr)

theorem part_action : (surfaceOf num hd r).action = getActionType (cellOf opticsAttr hd r 1) := rfl
theorem part_x : (surfaceOf num hd r).vertex.x = cellNumber num (cellOf opticsAttr hd r 6) := rfl
theorem part_y : (surfaceOf num hd r).vertex.y = cellNumber num (cellOf opticsAttr hd r 7) := rfl
theorem part_z : (surfaceOf num hd r).vertex.z = cellNumber num (cellOf opticsAttr hd r 8) := rfl
theorem part_tilt : (surfaceOf num hd r).tilt = cellNumber num (cellOf opticsAttr hd r 9) := rfl
theorem part_pitch : (surfaceOf num hd r).pitch = cellNumber num (cellOf opticsAttr hd r 10) := rfl
theorem part_roll : (surfaceOf num hd r).roll = cellNumber num (cellOf opticsAttr hd r 11) := rfl
theorem part_legs : (surfaceOf num hd r).legs = trunc (cellNumber num (cellOf opticsAttr hd r 30)) :=
  rfl

end parts

/-- The headers of the table. -/
@[irreducible] def headers : List PyStr := (unpack desiOptics).getD 1 []

/-- The rows of the table. -/
@[irreducible] def rows : List (List PyStr) := (unpack desiOptics).drop 2

theorem desi_unpack : unpack desiOptics = (unpack desiOptics).getD 0 [] :: headers :: rows := by
  have h : 2 ≤ (unpack desiOptics).length := by decide +kernel
  unfold headers rows
  generalize unpack desiOptics = l at h
  match l, h with
  | a :: b :: t, _ => rfl

/-- A cell that is read as 0. -/
def ZeroText (s : PyStr) : Prop := s = [] ∨ s = "0".toList ∨ s = "0.".toList

instance (s : PyStr) : Decidable (ZeroText s) := by unfold ZeroText; infer_instance

theorem zero_number (num : PyStr → Option ℝ) (h0 : num "0".toList = some 0)
    (h1 : num "0.".toList = some 0) (s : PyStr) (h : ZeroText s) : cellNumber num s = 0 := by
  unfold cellNumber
  rcases h with rfl | rfl | rfl
  · rfl
  · rw [h0]; split_ifs <;> rfl
  · rw [h1]; split_ifs <;> rfl

/-- The cell of row `j`. -/
def at_ (j : ℕ) (a : Int) : PyStr := cellOf opticsAttr headers (rows.getD j []) a

/-- The surface of row `j`. -/
noncomputable def surf (num : PyStr → Option ℝ) (j : ℕ) : Surf :=
  surfaceOf num headers (rows.getD j [])

theorem desi_headers : ∀ h ∈ headers, ∃ a, getOpticsAttribute h = .ok a := by
  have h : (headers.all fun h => (getOpticsAttribute h).isOk) = true := by decide +kernel
  intro x hx
  have := List.all_eq_true.1 h x hx
  cases hg : getOpticsAttribute x with
  | ok a => exact ⟨a, rfl⟩
  | error e => rw [hg] at this; cases this

/-- **C97** (optics of DESI). The optics table of the repository is read without error, as 26 surfaces,
those of its first 26 rows; the notes below are left out. -/
theorem C97_table (num : PyStr → Option ℝ) :
    getOptics num (some desiOptics) = .ok ((List.range 26).map (surf num)) := by
  rw [C96_optics num desiOptics _ headers rows desi_unpack (by decide +kernel) (by decide +kernel)
    desi_headers]
  have hs : suckInt (((unpack desiOptics).getD 0 []).getD 0 []) = 26 := by decide +kernel
  have hl : rows.length = 28 := by decide +kernel
  rw [hs, if_neg (by norm_num)]
  rw [take_range rows 26 (by rw [hl]; norm_num)]
  unfold surf
  rfl

/-- Rows that are on the axis, not tilted and without spider. -/
def axial (j : ℕ) : Bool :=
  decide (ZeroText (at_ j 6)) && decide (ZeroText (at_ j 7)) && decide (ZeroText (at_ j 9)) &&
    decide (ZeroText (at_ j 10)) && decide (ZeroText (at_ j 30))

theorem plain_of (num : PyStr → Option ℝ) (h0 : num "0".toList = some 0)
    (h1 : num "0.".toList = some 0) (j : ℕ) (h : ZeroText (at_ j 30)) : Plain (surf num j) := by
  left
  unfold surf
  unfold at_ at h
  rw [part_legs, zero_number num h0 h1 _ h]
  unfold trunc
  rw [if_pos le_rfl, Int.floor_zero]
  norm_num

theorem axial_spec (num : PyStr → Option ℝ) (h0 : num "0".toList = some 0)
    (h1 : num "0.".toList = some 0) (j : ℕ) (h : axial j = true) :
    OnAxis (surf num j) ∧ Plain (surf num j) := by
  unfold axial at h
  simp only [Bool.and_eq_true, decide_eq_true_eq] at h
  obtain ⟨⟨⟨⟨h6, h7⟩, h9⟩, h10⟩, h30⟩ := h
  refine ⟨⟨?_, ?_, ?_, ?_⟩, plain_of num h0 h1 j h30⟩
  · unfold surf; rw [part_x]; exact zero_number num h0 h1 _ h6
  · unfold surf; rw [part_y]; exact zero_number num h0 h1 _ h7
  · unfold surf; rw [part_tilt]; exact zero_number num h0 h1 _ h9
  · unfold surf; rw [part_pitch]; exact zero_number num h0 h1 _ h10

theorem action_of (num : PyStr → Option ℝ) (j : ℕ) :
    (surf num j).action = getActionType (at_ j 1) := by
  unfold surf at_; rw [part_action]

theorem symmetric_of (num : PyStr → Option ℝ) (h0 : num "0".toList = some 0)
    (h1 : num "0.".toList = some 0) (j : ℕ)
    (h : (axial j && decide (getActionType (at_ j 1) ≠ 5)) = true) : Symmetric (surf num j) := by
  rw [Bool.and_eq_true, decide_eq_true_eq] at h
  obtain ⟨a1, a2⟩ := axial_spec num h0 h1 j h.1
  exact ⟨a1, a2, by rw [action_of]; exact h.2⟩

theorem in_of (num : PyStr → Option ℝ) (h0 : num "0".toList = some 0)
    (h1 : num "0.".toList = some 0) (j : ℕ)
    (h : (axial j && decide (getActionType (at_ j 1) = 4) && decide (ZeroText (at_ j 11))) = true) :
    BreakIn (surf num j) := by
  rw [Bool.and_eq_true, Bool.and_eq_true, decide_eq_true_eq, decide_eq_true_eq] at h
  obtain ⟨a1, a2⟩ := axial_spec num h0 h1 j h.1.1
  refine ⟨by rw [action_of]; exact h.1.2, a1, ?_, a2⟩
  unfold surf; rw [part_roll]; exact zero_number num h0 h1 _ h.2

theorem out_of (num : PyStr → Option ℝ) (h0 : num "0".toList = some 0)
    (h1 : num "0.".toList = some 0) (i j : ℕ)
    (hi : axial i = true)
    (h : (axial j && decide (getActionType (at_ j 1) = 5) && decide (at_ j 8 = at_ i 8)) = true) :
    BreakOut (surf num i) (surf num j) (surf num j).roll := by
  rw [Bool.and_eq_true, Bool.and_eq_true, decide_eq_true_eq, decide_eq_true_eq] at h
  obtain ⟨a1, _⟩ := axial_spec num h0 h1 j h.1.1
  obtain ⟨b1, _⟩ := axial_spec num h0 h1 i hi
  refine ⟨by rw [action_of]; exact h.1.2, ?_, a1.2.2.1, a1.2.2.2, rfl⟩
  have hz : (surf num j).vertex.z = (surf num i).vertex.z := by
    have h8 := h.2
    unfold at_ at h8
    unfold surf
    rw [part_z, part_z, h8]
  ext
  · rw [a1.1, b1.1]
  · rw [a1.2.1, b1.2.1]
  · exact hz

theorem facts :
    ([0, 1, 2, 5, 6, 7, 8, 21, 22, 23, 24, 25].all (fun j =>
      axial j && decide (getActionType (at_ j 1) ≠ 5)) &&
    [3, 9, 13, 15, 19].all (fun j =>
      axial j && decide (getActionType (at_ j 1) = 4) && decide (ZeroText (at_ j 11))) &&
    [(3, 4), (9, 10), (13, 14), (15, 16), (19, 20)].all (fun p =>
      axial p.2 && decide (getActionType (at_ p.2 1) = 5) && decide (at_ p.2 8 = at_ p.1 8)) &&
    [11, 12, 17, 18].all (fun j =>
      decide (ZeroText (at_ j 30)) && decide (getActionType (at_ j 1) ≠ 5)) &&
    decide (ZeroText (at_ 4 11))) = true := by decide +kernel

/-- **C97** (corrector of DESI). In the telescope of the optics table of DESI, whatever the numbers in
it other than 0: if both angles of the corrector are increased by `t` degrees and the
incoming ray is turned by `t` about the axis, then the outgoing ray is turned by `t`. -/
theorem C97_desi (num : PyStr → Option ℝ) (h0 : num "0".toList = some 0)
    (h1 : num "0.".toList = some 0) (adc1 adc2 t : ℝ) :
    ∃ S T T', getOptics num (some desiOptics) = .ok S ∧ modifyADC adc1 adc2 S = .ok T ∧
      modifyADC (adc1 + t) (adc2 + t) S = .ok T' ∧
      ∀ refr start, final refr T' (turnHit (Z t) start) =
        (final refr T start).map (Option.map (turn (Z t))) := by
  have hS : (List.range 26).map (surf num) = [surf num 0, surf num 1, surf num 2] ++
      surf num 3 :: surf num 4 :: [surf num 5, surf num 6, surf num 7, surf num 8] ++
      [surf num 9, surf num 10, surf num 11, surf num 12, surf num 13, surf num 14, surf num 15,
        surf num 16, surf num 17, surf num 18, surf num 19, surf num 20] ++
      [surf num 21, surf num 22, surf num 23, surf num 24, surf num 25] := by
    generalize surf num = f
    rfl
  have f := facts
  simp only [Bool.and_eq_true, List.all_eq_true, decide_eq_true_eq] at f
  obtain ⟨⟨⟨⟨fs, fi⟩, fo⟩, fe⟩, fz⟩ := f
  have sy : ∀ j ∈ [0, 1, 2, 5, 6, 7, 8, 21, 22, 23, 24, 25], Symmetric (surf num j) := by
    intro j hj
    apply symmetric_of num h0 h1 j
    rw [Bool.and_eq_true, decide_eq_true_eq]
    exact fs j hj
  have bi : ∀ j ∈ [3, 9, 13, 15, 19], BreakIn (surf num j) := by
    intro j hj
    apply in_of num h0 h1 j
    rw [Bool.and_eq_true, Bool.and_eq_true, decide_eq_true_eq, decide_eq_true_eq]
    exact fi j hj
  have bo : ∀ p ∈ [(3, 4), (9, 10), (13, 14), (15, 16), (19, 20)],
      p.1 ∈ [3, 9, 13, 15, 19] →
      BreakOut (surf num p.1) (surf num p.2) (surf num p.2).roll := by
    intro p hp hq
    apply out_of num h0 h1 p.1 p.2 (fi _ hq).1.1
    rw [Bool.and_eq_true, Bool.and_eq_true, decide_eq_true_eq, decide_eq_true_eq]
    exact fo p hp
  have be : ∀ j ∈ [11, 12, 17, 18], Plain (surf num j) ∧ (surf num j).action ≠ 5 := by
    intro j hj
    refine ⟨plain_of num h0 h1 j (fe j hj).1, ?_⟩
    rw [action_of]
    exact (fe j hj).2
  have k0 : BreakOut (surf num 3) (surf num 4) 0 := by
    have h := bo (3, 4) (by simp) (by simp)
    have hr : (surf num 4).roll = 0 := by
      unfold surf; rw [part_roll]; exact zero_number num h0 h1 _ fz
    rw [hr] at h
    exact h
  clear fs fi fo fe fz
  rw [C97_table num, hS]
  have b1 := bo (9, 10) (by simp) (by simp)
  have b2 := bo (13, 14) (by simp) (by simp)
  have b3 := bo (15, 16) (by simp) (by simp)
  have b4 := bo (19, 20) (by simp) (by simp)
  clear bo hS
  generalize surf num = f at sy bi be k0 b1 b2 b3 b4 ⊢
  obtain ⟨T, T', hT, hT', hf⟩ := C97_corotate adc1 adc2 t
    [f 0, f 1, f 2] [f 5, f 6, f 7, f 8] [f 21, f 22, f 23, f 24, f 25] rfl
    (f 3) (f 4) (f 9) (f 10) (f 13) (f 14) (f 15) (f 16) (f 19) (f 20) (f 11) (f 12) (f 17) (f 18)
    (by
      intro S hS
      simp only [List.mem_cons, List.not_mem_nil, or_false] at hS
      rcases hS with rfl | rfl | rfl <;> exact sy _ (by simp))
    (by
      intro S hS
      simp only [List.mem_cons, List.not_mem_nil, or_false] at hS
      rcases hS with rfl | rfl | rfl | rfl <;> exact sy _ (by simp))
    (by
      intro S hS
      simp only [List.mem_cons, List.not_mem_nil, or_false] at hS
      rcases hS with rfl | rfl | rfl | rfl | rfl <;> exact sy _ (by simp))
    (bi 3 (by simp)) (bi 9 (by simp)) (bi 13 (by simp)) (bi 15 (by simp)) (bi 19 (by simp)) k0
    b1 b2 b3 b4 (be 11 (by simp)) (be 12 (by simp)) (be 17 (by simp)) (be 18 (by simp))
  exact ⟨_, T, T', rfl, hT, hT', hf⟩

end Verif.Props.RayDesi
