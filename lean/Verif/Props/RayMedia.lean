import Verif.Props.RayTables

/-!
# C96: rays and media of the ray tracer

The rays and the refractive indices read from the tables.
-/

namespace Verif.Props.RayTables

open Verif.Py Verif.RayTrace

/-! ## Rays -/

/-- The attribute of a header of the ray table. -/
def rayAttr (header : PyStr) : Option Int := some (getRayStartAttribute header)

/-- The ray a row stands for, before its direction is completed: position, direction and
wavelength. -/
noncomputable def rayOf (num : PyStr → Option ℝ) (headers row : List PyStr) : Ray × PyStr :=
  let x := fun a : Int => (num (cellOf rayAttr headers row a)).getD 0
  (⟨⟨x 0, x 1, x 2⟩, ⟨x 3, x 4, x 5⟩⟩,
    if (∃ h ∈ headers, getRayStartAttribute h = 6) then cellOf rayAttr headers row 6
    else " ".toList)

/-- What a field does to one row. -/
def putR (num : PyStr → Option ℝ) (a : Option Int) (c : PyStr) (o : RRow) : RRow :=
  match a with
  | none => o
  | some a =>
    let o := if a = 6 then { o with wave := c } else o
    if 0 ≤ a ∧ a ≤ 8 then { o with num := Function.update o.num a.toNat ((num c).getD 0) } else o

theorem setRayField_rows (num : PyStr → Option ℝ) (R : List (List PyStr)) (g : List PyStr → RRow)
    (i : ℕ) (header : PyStr) :
    setRayField num (R.map g) (header, column R i) =
      R.map fun r => putR num (rayAttr header) (r.getD i []) (g r) := by
  unfold setRayField rayAttr
  dsimp only
  by_cases h6 : getRayStartAttribute header = 6
  · rw [if_pos h6, if_pos (by omega), zip_rows, zip_rows]
    have h8 : 0 ≤ getRayStartAttribute header ∧ getRayStartAttribute header ≤ 8 := by omega
    simp only [putR, if_pos h6, if_pos h8]
  · rw [if_neg h6]
    by_cases h2 : 0 ≤ getRayStartAttribute header ∧ getRayStartAttribute header ≤ 8
    · rw [if_pos h2, zip_rows]
      simp only [putR, if_neg h6, if_pos h2]
    · rw [if_neg h2]
      simp only [putR, if_neg h6, if_neg h2]

theorem rays_fold (num : PyStr → Option ℝ) (headers : List PyStr) (R : List (List PyStr))
    (init : RRow) (m : ℕ) :
    (fields headers R m).foldl (setRayField num) (R.map fun _ => init) =
      R.map fun r => rowOf (putR num) rayAttr headers r init m := by
  induction m with
  | zero => rfl
  | succ m ih =>
    rw [fields_succ, List.foldl_append, ih]
    simp only [rowOf_succ, List.foldl_cons, List.foldl_nil]
    exact setRayField_rows num R _ m _

theorem rowOf_ray (num : PyStr → Option ℝ) (hnum : num [] = none) (headers row : List PyStr) :
    let o := rowOf (putR num) rayAttr headers row ⟨fun _ => 0, " ".toList⟩ headers.length
    (⟨⟨o.num 0, o.num 1, o.num 2⟩, ⟨o.num 3, o.num 4, o.num 5⟩⟩, o.wave) = rayOf num headers row := by
  intro o
  have hx : ∀ a : ℕ, a ≤ 8 → o.num a = (num (cellOf rayAttr headers row a)).getD 0 := by
    intro a h8
    show (rowOf (putR num) rayAttr headers row ⟨fun _ => 0, " ".toList⟩ headers.length).num a = _
    rw [rowOf_read (putR num) rayAttr headers row _ a (fun o => o.num a) (fun c => (num c).getD 0)]
    · rw [cellTo_all]
      cases cellTo rayAttr headers row a headers.length
      · show (0 : ℝ) = _
        rw [Option.getD_none, hnum]
        rfl
      · rfl
    · intro c o
      unfold putR
      dsimp only
      rw [if_pos (by omega)]
      simp
    · intro b c o hb
      unfold putR
      cases b with
      | none => rfl
      | some b =>
        dsimp only
        have h6 : (if b = 6 then { o with wave := c } else o).num = o.num := by
          split_ifs <;> rfl
        split_ifs with h3 h4
        · dsimp only
          rw [Function.update_of_ne]
          intro h
          apply hb
          congr 1
          omega
        · dsimp only
          rw [Function.update_of_ne]
          intro h
          apply hb
          congr 1
          omega
        · rfl
        · rfl
  have hw : o.wave = if (∃ h ∈ headers, getRayStartAttribute h = 6) then
      cellOf rayAttr headers row 6 else " ".toList := by
    show (rowOf (putR num) rayAttr headers row ⟨fun _ => 0, " ".toList⟩ headers.length).wave = _
    rw [rowOf_read (putR num) rayAttr headers row _ 6 (fun o => o.wave) id]
    · rw [cellTo_all]
      cases hc : cellTo rayAttr headers row 6 headers.length with
      | none =>
        rw [if_neg]
        · rfl
        · rintro ⟨h, hh, h6⟩
          unfold cellTo at hc
          rw [Option.map_eq_none_iff, List.find?_eq_none] at hc
          obtain ⟨i, hi, rfl⟩ := List.getElem_of_mem hh
          have := hc i (by rw [List.mem_reverse, List.mem_range]; exact hi)
          rw [List.getD_eq_getElem _ _ hi] at this
          apply this
          unfold rayAttr
          rw [h6]
          rfl
      | some c =>
        rw [if_pos]
        · rfl
        · unfold cellTo at hc
          obtain ⟨i, hi, _⟩ := Option.map_eq_some_iff.1 hc
          have h1 := List.find?_some hi
          have h2 := List.mem_of_find?_eq_some hi
          rw [List.mem_reverse, List.mem_range] at h2
          refine ⟨headers[i], List.getElem_mem h2, ?_⟩
          rw [List.getD_eq_getElem _ _ h2] at h1
          exact Option.some.inj (eq_of_beq h1)
    · intro c o
      rfl
    · intro b c o hb
      unfold putR
      cases b with
      | none => rfl
      | some b =>
        dsimp only
        have h6 : ¬ b = 6 := fun h => hb (by rw [h])
        simp only [if_neg h6]
        split_ifs <;> rfl
  unfold rayOf
  dsimp only
  rw [hw, hx 0 (by norm_num), hx 1 (by norm_num), hx 2 (by norm_num), hx 3 (by norm_num),
    hx 4 (by norm_num), hx 5 (by norm_num)]
  rfl

/-- Start of a ray from its row: the third direction cosine is completed. -/
def Starts (q : Ray × PyStr) (s : Start) : Prop :=
  s.wave = q.2 ∧ s.ray.pos = q.1.pos ∧ s.ray.dir.x = q.1.dir.x ∧ s.ray.dir.y = q.1.dir.y ∧
  s.ray.dir.x ^ 2 + s.ray.dir.y ^ 2 + s.ray.dir.z ^ 2 = 1 ∧
  (0 ≤ q.1.dir.z → 0 ≤ s.ray.dir.z) ∧ (q.1.dir.z < 0 → s.ray.dir.z ≤ 0)

theorem starts_unique (q : Ray × PyStr) (s t : Start) (hs : Starts q s) (ht : Starts q t) :
    s = t := by
  obtain ⟨s1, s2, s3, s4, s5, s6, s7⟩ := hs
  obtain ⟨t1, t2, t3, t4, t5, t6, t7⟩ := ht
  have hz : s.ray.dir.z = t.ray.dir.z := by
    have hsq : s.ray.dir.z ^ 2 = t.ray.dir.z ^ 2 := by
      rw [s3, s4] at s5
      rw [t3, t4] at t5
      linarith
    rcases sq_eq_sq_iff_eq_or_eq_neg.1 hsq with h | h
    · exact h
    · rcases le_or_gt 0 q.1.dir.z with hw | hw
      · have := s6 hw; have := t6 hw; linarith
      · have := s7 hw; have := t7 hw; linarith
  rcases s with ⟨⟨sp, ⟨sx, sy, sz⟩⟩, sw⟩
  rcases t with ⟨⟨tp, ⟨tx, ty, tz⟩⟩, tw⟩
  dsimp only at *
  subst s1 t1 s2 t2 hz
  rw [s3, s4, t3, t4]

theorem start_iff (o : RRow) (s : Start) :
    o.start = .ok s ↔
      Starts (⟨⟨o.num 0, o.num 1, o.num 2⟩, ⟨o.num 3, o.num 4, o.num 5⟩⟩, o.wave) s := by
  have hok : ∀ s, o.start = .ok s →
      Starts (⟨⟨o.num 0, o.num 1, o.num 2⟩, ⟨o.num 3, o.num 4, o.num 5⟩⟩, o.wave) s := by
    intro s h
    unfold RRow.start fixup at h
    dsimp only at h
    by_cases ha : 1 - o.num 3 * o.num 3 - o.num 4 * o.num 4 < 0
    · rw [if_pos ha] at h
      cases h
    · rw [if_neg ha] at h
      push Not at ha
      have hsq := Real.sq_sqrt ha
      by_cases hw : 0 ≤ o.num 5
      · rw [if_pos hw] at h
        obtain rfl := Except.ok.inj h
        refine ⟨rfl, rfl, rfl, rfl, ?_, fun _ => Real.sqrt_nonneg _, fun hn => ?_⟩
        · dsimp only; rw [hsq]; ring
        · dsimp only at hn; linarith
      · rw [if_neg hw] at h
        obtain rfl := Except.ok.inj h
        refine ⟨rfl, rfl, rfl, rfl, ?_, fun hn => absurd hn hw, fun _ => ?_⟩
        · dsimp only; rw [neg_sq, hsq]; ring
        · dsimp only; linarith [Real.sqrt_nonneg (1 - o.num 3 * o.num 3 - o.num 4 * o.num 4)]
  refine ⟨hok s, fun h => ?_⟩
  cases ho : o.start with
  | ok t => rw [starts_unique _ _ _ (hok t ho) h]
  | error e =>
    exfalso
    unfold RRow.start fixup at ho
    dsimp only at ho
    obtain ⟨-, -, h3, h4, h5, -, -⟩ := h
    dsimp only at h3 h4
    rw [h3, h4] at h5
    rw [if_neg (by nlinarith [sq_nonneg s.ray.dir.z])] at ho
    split_ifs at ho <;> cases ho

theorem start_error (o : RRow) (e : PyErr) (h : o.start = .error e) : e = .sysExit 0 := by
  unfold RRow.start fixup at h
  dsimp only at h
  split_ifs at h
  · exact (Except.error.inj h).symm
  · cases h
  · cases h

theorem mapM_starts (R : List (List PyStr)) (f : List PyStr → RRow) (out : List Start) :
    (R.map f).mapM RRow.start = .ok out ↔
      List.Forall₂ (fun r s => (f r).start = .ok s) R out := by
  induction R generalizing out with
  | nil =>
    rw [List.map_nil, List.mapM_nil]
    constructor
    · intro h
      obtain rfl := Except.ok.inj h
      exact .nil
    · intro h
      cases h
      rfl
  | cons r t ih =>
    rw [List.map_cons, List.mapM_cons]
    constructor
    · intro h
      cases hr : (f r).start with
      | error e => rw [hr] at h; cases h
      | ok s =>
        rw [hr] at h
        cases ht : (t.map f).mapM RRow.start with
        | error e =>
          have h : (do let bs ← (t.map f).mapM RRow.start; pure (s :: bs)) = Except.ok out := h
          rw [ht] at h
          cases h
        | ok ss =>
          have h : (do let bs ← (t.map f).mapM RRow.start; pure (s :: bs)) = Except.ok out := h
          rw [ht] at h
          obtain rfl := Except.ok.inj h
          exact .cons hr ((ih ss).1 ht)
    · intro h
      cases h with
      | cons hr ht =>
        rw [hr]
        show (do let bs ← (t.map f).mapM RRow.start; pure (_ :: bs)) = Except.ok _
        rw [(ih _).2 ht]
        rfl

theorem mapM_starts_error (R : List (List PyStr)) (f : List PyStr → RRow) (e : PyErr)
    (h : (R.map f).mapM RRow.start = .error e) : e = .sysExit 0 := by
  induction R with
  | nil => cases h
  | cons r t ih =>
    rw [List.map_cons, List.mapM_cons] at h
    cases hr : (f r).start with
    | error e' =>
      rw [hr] at h
      obtain rfl := Except.error.inj h
      exact start_error _ _ hr
    | ok s =>
      rw [hr] at h
      have h : (do let bs ← (t.map f).mapM RRow.start; pure (s :: bs)) = Except.error e := h
      cases ht : (t.map f).mapM RRow.start with
      | error e' =>
        rw [ht] at h
        obtain rfl := Except.error.inj h
        exact ih ht
      | ok ss => rw [ht] at h; cases h

/-- **C96** (rays). The rays are those of the rows of the table, in order, no more than
`maxrays` and than the number in the title, if there is one; each starts at the position of its
row, with a direction of unit length whose first two cosines are those of the row and whose third
has the sign of the row.  If for some row there is no such direction, or no rays are
asked for, the program ends. -/
theorem C96_rays (num : PyStr → Option ℝ) (hnum : num [] = none) (raw : List (List PyStr))
    (maxrays : ℕ) (title headers : List PyStr) (rows : List (List PyStr))
    (hT : unpack raw = title :: headers :: rows) (hr : rows ≠ []) (hc : 2 ≤ title.length) :
    (∀ out, getRays num (some raw) maxrays = .ok out ↔ 1 ≤ maxrays ∧
      List.Forall₂ (fun row s => Starts (rayOf num headers row) s)
        (rows.take (min maxrays (if suckInt (title.getD 0 []) = 0 then rows.length
          else suckInt (title.getD 0 [])))) out) ∧
    (∀ e, getRays num (some raw) maxrays = .error e → e = .sysExit 0) := by
  obtain ⟨hl, _⟩ := rectangular raw title headers rows hT hr
  have hlen : 0 < rows.length := List.length_pos_of_ne_nil hr
  have key : getRays num (some raw) maxrays = if maxrays < 1 then .error (.sysExit 0) else
      ((rows.take (min maxrays (if suckInt (title.getD 0 []) = 0 then rows.length
          else suckInt (title.getD 0 [])))).map fun r =>
        rowOf (putR num) rayAttr headers r ⟨fun _ => 0, " ".toList⟩ headers.length).mapM
          RRow.start := by
    unfold getRays openCSV
    show (match unpack raw with
      | [] => Except.error PyErr.indexError
      | title :: rest => _) = _
    rw [hT]
    dsimp only
    rw [if_neg (by rw [List.length_cons, List.length_cons]; omega)]
    simp only [List.length_cons, List.getD_cons_zero, List.drop_succ_cons, List.drop_zero]
    have hk1 : ∀ k, (guided (min (rows.length + 1 + 1 - 2) maxrays) k < 1) ↔ maxrays < 1 := by
      intro k
      unfold guided
      split_ifs <;> omega
    by_cases hm : maxrays < 1
    · rw [if_pos ((hk1 _).2 hm), if_pos hm]
    · rw [if_neg (fun h => hm ((hk1 _).1 h)), if_neg hm]
      have hn : ∀ k, (rows.take (guided (min (rows.length + 1 + 1 - 2) maxrays) k)) =
          rows.take (min maxrays (if k = 0 then rows.length else k)) := by
        intro k
        unfold guided
        rw [List.take_eq_take_iff]
        split_ifs <;> omega
      have hrep : ∀ k (o : RRow),
          List.replicate (guided (min (rows.length + 1 + 1 - 2) maxrays) k) o =
          (rows.take (guided (min (rows.length + 1 + 1 - 2) maxrays) k)).map fun _ => o := by
        intro k o
        rw [List.map_const', List.length_take]
        congr 1
        unfold guided
        split_ifs <;> omega
      rw [hrep, hn]
      have := rays_fold num headers (rows.take (min maxrays
        (if suckInt (title.getD 0 []) = 0 then rows.length else suckInt (title.getD 0 []))))
        ⟨fun _ => 0, " ".toList⟩ title.length
      unfold fields at this
      rw [this, hl]
  constructor
  · intro out
    rw [key]
    by_cases hm : maxrays < 1
    · rw [if_pos hm]
      constructor
      · intro h; cases h
      · rintro ⟨h, _⟩; omega
    · rw [if_neg hm, mapM_starts]
      have : ∀ (r : List PyStr) (s : Start),
          (rowOf (putR num) rayAttr headers r ⟨fun _ => 0, " ".toList⟩ headers.length).start
            = .ok s ↔ Starts (rayOf num headers r) s := by
        intro r s
        rw [start_iff, ← rowOf_ray num hnum headers r]
      constructor
      · intro h
        exact ⟨by omega, h.imp fun r s => (this r s).1⟩
      · rintro ⟨_, h⟩
        exact h.imp fun r s => (this r s).2
  · intro e h
    rw [key] at h
    by_cases hm : maxrays < 1
    · rw [if_pos hm] at h
      exact (Except.error.inj h).symm
    · rw [if_neg hm] at h
      exact mapM_starts_error _ _ _ h

/-- **C96** (headers of rays). -/
theorem C96_ray_headers (s : PyStr) :
    (∀ c, c.toUpper = '@' → getRayStartAttribute (c :: s) = 6) ∧
    (∀ c k, (c.toUpper, k) ∈ [('X', 0), ('Y', 1), ('Z', 2), ('U', 3), ('V', 4), ('W', (5 : Int))] →
      getRayStartAttribute (c :: '0' :: s) = k) ∧
    (∀ h, getRayStartAttribute h ∈ [0, 1, 2, 3, 4, (5 : Int)] →
      ∃ c t, h = c :: '0' :: t ∧ (c.toUpper, getRayStartAttribute h) ∈
        [('X', 0), ('Y', 1), ('Z', 2), ('U', 3), ('V', 4), ('W', (5 : Int))]) := by
  have h0 : ∀ d : Char, d.toUpper = '0' → d = '0' := by
    intro d h
    unfold Char.toUpper at h
    split_ifs at h with hc
    · exfalso
      have h1 := congrArg Char.val h
      simp only at h1
      have h2 : d.val.toNat ≤ 'z'.val.toNat := hc.2
      have h3 : 'a'.val.toNat ≤ d.val.toNat := hc.1
      have h4 := congrArg UInt32.toNat h1
      rw [UInt32.toNat_add] at h4
      simp at h2 h3 h4
      omega
    · exact h
  refine ⟨?_, ?_, ?_⟩
  · intro c h
    simp [getRayStartAttribute, h]
  · intro c k h
    have hz : Char.toUpper '0' = '0' := by decide
    simp only [List.mem_cons, List.not_mem_nil, Prod.mk.injEq, or_false] at h
    rcases h with ⟨h, rfl⟩ | ⟨h, rfl⟩ | ⟨h, rfl⟩ | ⟨h, rfl⟩ | ⟨h, rfl⟩ | ⟨h, rfl⟩ <;>
      simp [getRayStartAttribute, h, hz]
  · intro h hm
    cases h with
    | nil => simp [getRayStartAttribute] at hm
    | cons c t =>
      cases t with
      | nil =>
        exfalso
        simp only [getRayStartAttribute, List.map_cons, List.map_nil, List.getD_nil] at hm
        split_ifs at hm <;> simp_all
      | cons d t =>
        simp only [getRayStartAttribute, List.map_cons, List.getD_cons_zero] at hm ⊢
        split_ifs at hm <;> simp_all

/-! ## Media -/

/-- **C96** (media). A media table is accepted if and only if every glass and every wavelength that is
used is in it (or is the text `base=1`); the number of glasses must be in the title. -/
theorem C96_media (num : PyStr → Option ℝ) (raw : List (List PyStr)) (glasses waves : List PyStr)
    (title headers : List PyStr) (rows : List (List PyStr))
    (hT : unpack raw = title :: headers :: rows) (hr : rows ≠ []) (hc : 2 ≤ title.length) :
    ((∃ m, getMedia num (some raw) glasses waves = .ok m) ↔
      suckInt (title.getD 0 []) ≠ 0 ∧
      (∀ g ∈ glasses, g = [] ∨ g = dummy ∨ ∃ row ∈ rows.take (suckInt (title.getD 0 [])),
        row.getD 0 [] = g) ∧
      (∀ w ∈ waves, w = dummy ∨ w ∈ headers.drop 1)) ∧
    (∀ m, getMedia num (some raw) glasses waves = .ok m →
      m = ⟨(rows.take (suckInt (title.getD 0 []))).map (·.getD 0 []), headers.drop 1,
        (rows.take (suckInt (title.getD 0 []))).map fun r => (r.drop 1).map (cellNumber num)⟩) ∧
    (∀ e, getMedia num (some raw) glasses waves = .error e → e = .sysExit 0) := by
  have hlen : 0 < rows.length := List.length_pos_of_ne_nil hr
  have htake : ∀ k, rows.take (min (rows.length + 1 + 1 - 2) k) = rows.take k := by
    intro k
    rw [List.take_eq_take_iff]
    omega
  have key : getMedia num (some raw) glasses waves =
      if suckInt (title.getD 0 []) < 1 then .error (.sysExit 0)
      else if glasses.any (fun g => decide (g.length > 0) &&
        !(dummy :: (rows.take (suckInt (title.getD 0 []))).map (·.getD 0 [])).contains g) = true then
          .error (.sysExit 0)
      else if waves.any (fun w => !(dummy :: headers.drop 1).contains w) = true then
          .error (.sysExit 0)
      else .ok ⟨(rows.take (suckInt (title.getD 0 []))).map (·.getD 0 []), headers.drop 1,
        (rows.take (suckInt (title.getD 0 []))).map fun r => (r.drop 1).map (cellNumber num)⟩ := by
    unfold getMedia openCSV
    show (match unpack raw with
      | [] => Except.error PyErr.indexError
      | title :: rest => _) = _
    rw [hT]
    dsimp only
    rw [if_neg (by rw [List.length_cons, List.length_cons]; omega)]
    simp only [List.length_cons, List.getD_cons_zero, List.drop_succ_cons, List.drop_zero]
    by_cases hk : suckInt (title.getD 0 []) < 1
    · rw [if_pos (by omega), if_pos hk]
    · rw [if_neg (by omega), if_neg hk, htake]
      rfl
  have hg : glasses.any (fun g => decide (g.length > 0) &&
        !(dummy :: (rows.take (suckInt (title.getD 0 []))).map (·.getD 0 [])).contains g) = true ↔
      ¬ ∀ g ∈ glasses, g = [] ∨ g = dummy ∨ ∃ row ∈ rows.take (suckInt (title.getD 0 [])),
        row.getD 0 [] = g := by
    rw [List.any_eq_true]
    constructor
    · rintro ⟨g, hg, h⟩ hall
      rw [Bool.and_eq_true, decide_eq_true_eq, Bool.not_eq_true', List.contains_eq_mem,
        decide_eq_false_iff_not, List.mem_cons, List.mem_map] at h
      rcases hall g hg with h0 | h0 | h0
      · rw [h0] at h; simp at h
      · exact h.2 (Or.inl h0)
      · exact h.2 (Or.inr h0)
    · intro h
      push Not at h
      obtain ⟨g, hg, h1, h2, h3⟩ := h
      refine ⟨g, hg, ?_⟩
      rw [Bool.and_eq_true, decide_eq_true_eq, Bool.not_eq_true', List.contains_eq_mem,
        decide_eq_false_iff_not, List.mem_cons, List.mem_map]
      refine ⟨List.length_pos_of_ne_nil h1, ?_⟩
      rintro (h4 | ⟨row, hr, h4⟩)
      · exact h2 h4
      · exact h3 row hr h4
  have hw : waves.any (fun w => !(dummy :: headers.drop 1).contains w) = true ↔
      ¬ ∀ w ∈ waves, w = dummy ∨ w ∈ headers.drop 1 := by
    rw [List.any_eq_true]
    constructor
    · rintro ⟨w, hw, h⟩ hall
      rw [Bool.not_eq_true', List.contains_eq_mem, decide_eq_false_iff_not, List.mem_cons] at h
      exact h (hall w hw)
    · intro h
      push Not at h
      obtain ⟨w, hw, h1, h2⟩ := h
      refine ⟨w, hw, ?_⟩
      rw [Bool.not_eq_true', List.contains_eq_mem, decide_eq_false_iff_not, List.mem_cons]
      rintro (h3 | h3)
      · exact h1 h3
      · exact h2 h3
  rw [key]
  by_cases hk : suckInt (title.getD 0 []) < 1
  · rw [if_pos hk]
    refine ⟨⟨?_, ?_⟩, ?_, ?_⟩
    · rintro ⟨m, h⟩; cases h
    · rintro ⟨h, _⟩; omega
    · intro m h; cases h
    · intro e h; exact (Except.error.inj h).symm
  · rw [if_neg hk]
    by_cases h1 : glasses.any (fun g => decide (g.length > 0) &&
        !(dummy :: (rows.take (suckInt (title.getD 0 []))).map (·.getD 0 [])).contains g) = true
    · rw [if_pos h1]
      refine ⟨⟨?_, ?_⟩, ?_, ?_⟩
      · rintro ⟨m, h⟩; cases h
      · rintro ⟨_, h, _⟩; exact absurd h (hg.1 h1)
      · intro m h; cases h
      · intro e h; exact (Except.error.inj h).symm
    · rw [if_neg h1]
      by_cases h2 : waves.any (fun w => !(dummy :: headers.drop 1).contains w) = true
      · rw [if_pos h2]
        refine ⟨⟨?_, ?_⟩, ?_, ?_⟩
        · rintro ⟨m, h⟩; cases h
        · rintro ⟨_, _, h⟩; exact absurd h (hw.1 h2)
        · intro m h; cases h
        · intro e h; exact (Except.error.inj h).symm
      · rw [if_neg h2]
        refine ⟨⟨fun _ => ⟨by omega, ?_, ?_⟩, fun _ => ⟨_, rfl⟩⟩, ?_, ?_⟩
        · by_contra hc; exact h1 (hg.2 hc)
        · by_contra hc; exact h2 (hw.2 hc)
        · intro m h; exact (Except.ok.inj h).symm
        · intro e h; cases h

theorem findIdx_spec (l : List PyStr) (x : PyStr) (h : x ∈ l) :
    ∃ i, l.findIdx? (· == x) = some i ∧ l.getD i [] = x ∧ i < l.length ∧
      ∀ j < i, l.getD j [] ≠ x := by
  induction l with
  | nil => simp at h
  | cons c t ih =>
    rw [List.findIdx?_cons]
    by_cases hc : c = x
    · refine ⟨0, ?_, ?_, by simp, by intro j hj; omega⟩
      · simp [hc]
      · exact hc
    · obtain ⟨i, h1, h2, h3, h4⟩ := ih ((List.mem_cons.1 h).resolve_left (fun e => hc e.symm))
      refine ⟨i + 1, ?_, ?_, by simpa using h3, ?_⟩
      · rw [if_neg (by simpa using hc), h1]; rfl
      · exact h2
      · intro j hj
        cases j with
        | zero => exact hc
        | succ j => exact h4 j (by omega)

/-- **C96** (refraction). Once the media table is accepted the index of every glass of the
telescope for every ray is found, and the program does not end: it is 1 for no glass, the number
for a number, and else the number at the first row with the name of the glass and the first column
with the name of the wavelength. -/
theorem C96_refraction (num : PyStr → Option ℝ) (raw : List (List PyStr))
    (glasses waves : List PyStr) (title headers : List PyStr) (rows : List (List PyStr))
    (hT : unpack raw = title :: headers :: rows) (hr : rows ≠ []) (hc : 2 ≤ title.length)
    (m : Media) (hm : getMedia num (some raw) glasses waves = .ok m)
    (glass wave : PyStr) (hg : glass ∈ glasses) (hw : wave ∈ waves)
    (hgd : glass ≠ dummy) (hwd : wave ≠ dummy) :
    (glass = [] → findRefraction num m wave glass = .ok 1) ∧
    (∀ x, glass ≠ [] → num glass = some x → findRefraction num m wave glass = .ok x) ∧
    (glass ≠ [] → num glass = none → ∃ i j, i < rows.length ∧ i < suckInt (title.getD 0 []) ∧
      (rows.getD i []).getD 0 [] = glass ∧ (∀ i' < i, (rows.getD i' []).getD 0 [] ≠ glass) ∧
      headers.getD (j + 1) [] = wave ∧ (∀ j' < j, headers.getD (j' + 1) [] ≠ wave) ∧
      findRefraction num m wave glass = .ok (cellNumber num ((rows.getD i []).getD (j + 1) []))) := by
  obtain ⟨h1, h2, _⟩ := C96_media num raw glasses waves title headers rows hT hr hc
  obtain ⟨hn, hG, hW⟩ := h1.1 ⟨m, hm⟩
  obtain ⟨hl, hrl⟩ := rectangular raw title headers rows hT hr
  have hmeq := h2 m hm
  refine ⟨?_, ?_, ?_⟩
  · rintro rfl
    rfl
  · intro x hne hx
    unfold findRefraction
    rw [if_neg (by have := List.length_pos_of_ne_nil hne; omega), hx]
  · intro hne hx
    obtain ⟨row, hrow, hrg⟩ := ((hG glass hg).resolve_left hne).resolve_left hgd
    have hwm := (hW wave hw).resolve_left hwd
    have hgm : glass ∈ m.glasses := by
      rw [hmeq]
      exact List.mem_map.2 ⟨row, hrow, hrg⟩
    have hwm' : wave ∈ m.waves := by rw [hmeq]; exact hwm
    obtain ⟨i, i1, i2, i3, i4⟩ := findIdx_spec _ _ hgm
    obtain ⟨j, j1, j2, j3, j4⟩ := findIdx_spec _ _ hwm'
    have hglen : m.glasses.length = min (suckInt (title.getD 0 [])) rows.length := by
      rw [hmeq]; simp
    have hgat : ∀ k < m.glasses.length, m.glasses.getD k [] = (rows.getD k []).getD 0 [] := by
      intro k hk
      rw [hglen] at hk
      rw [hmeq]
      dsimp only
      rw [List.getD_eq_getElem _ _ (by rw [List.length_map, List.length_take]; omega),
        List.getElem_map, List.getElem_take, List.getD_eq_getElem rows _ (by omega)]
    have hwat : ∀ k, m.waves.getD k [] = headers.getD (k + 1) [] := by
      intro k
      rw [hmeq]
      dsimp only
      rw [List.getD_eq_getElem?_getD, List.getD_eq_getElem?_getD, List.getElem?_drop, Nat.add_comm]
    have hwlen : m.waves.length = headers.length - 1 := by rw [hmeq]; simp
    refine ⟨i, j, by omega, by omega, ?_, ?_, ?_, ?_, ?_⟩
    · rw [← hgat i i3]; exact i2
    · intro i' hi'
      rw [← hgat i' (by omega)]; exact i4 i' hi'
    · rw [← hwat]; exact j2
    · intro j' hj'
      rw [← hwat]; exact j4 j' hj'
    · unfold findRefraction
      rw [if_neg (by have := List.length_pos_of_ne_nil hne; omega), hx]
      dsimp only
      rw [if_neg (by omega), i1]
      dsimp only
      rw [j1]
      dsimp only
      congr 1
      have hri : rows.getD i [] = rows[i]'(by omega) := List.getD_eq_getElem _ _ _
      have hlen' : (rows[i]'(by omega)).length = title.length := hrl _ (List.getElem_mem _)
      rw [hmeq]
      dsimp only
      rw [List.getD_eq_getElem _ [] (by rw [List.length_map, List.length_take]; omega),
        List.getElem_map, List.getElem_take, List.getD_eq_getElem _ (0 : ℝ) (by
          rw [List.length_map, List.length_drop]; omega), List.getElem_map, List.getElem_drop,
        hri, List.getD_eq_getElem (rows[i]'(by omega)) [] (show j + 1 < _ by omega)]
      congr 2
      omega

/-- **C96** (finding). A glass given by its index, which `findRefraction` can use, is refused by
the check of the media table unless there is a row of that name, and the exit code is that of
success. -/
theorem C96_numeric_glass (num : PyStr → Option ℝ) (raw : List (List PyStr))
    (glasses waves : List PyStr) (title headers : List PyStr) (rows : List (List PyStr))
    (hT : unpack raw = title :: headers :: rows) (hr : rows ≠ []) (hc : 2 ≤ title.length)
    (glass : PyStr) (x : ℝ) (hg : glass ∈ glasses) (hne : glass ≠ []) (hd : glass ≠ dummy)
    (_hx : num glass = some x) (hno : ∀ row ∈ rows, row.getD 0 [] ≠ glass) :
    getMedia num (some raw) glasses waves = .error (.sysExit 0) := by
  obtain ⟨h1, _, h3⟩ := C96_media num raw glasses waves title headers rows hT hr hc
  cases hm : getMedia num (some raw) glasses waves with
  | error e => rw [h3 e hm]
  | ok m =>
    exfalso
    obtain ⟨_, hG, _⟩ := h1.1 ⟨m, hm⟩
    rcases hG glass hg with h | h | ⟨row, hr, h⟩
    · exact hne h
    · exact hd h
    · exact hno row (List.mem_of_mem_take hr) h

/-- **C96** (finding). Without a number in the title the optics table is read in full but the media
table is refused. -/
theorem C96_no_number (num : PyStr → Option ℝ) (raw : List (List PyStr))
    (glasses waves : List PyStr) (title headers : List PyStr) (rows : List (List PyStr))
    (hT : unpack raw = title :: headers :: rows) (hr : rows ≠ []) (hc : 2 ≤ title.length)
    (h0 : ∀ c ∈ title.getD 0 [], isDig c = false) :
    getMedia num (some raw) glasses waves = .error (.sysExit 0) ∧
    ((∀ h ∈ headers, ∃ a, getOpticsAttribute h = .ok a) →
      getOptics num (some raw) = .ok (rows.map (surfaceOf num headers))) := by
  have hz := (C96_first_number (title.getD 0 [])).2 h0
  constructor
  · obtain ⟨h1, _, h3⟩ := C96_media num raw glasses waves title headers rows hT hr hc
    cases hm : getMedia num (some raw) glasses waves with
    | error e => rw [h3 e hm]
    | ok m => exact absurd hz (h1.1 ⟨m, hm⟩).1
  · intro hd
    rw [C96_optics num raw title headers rows hT hr hc hd, if_pos hz, List.take_length]

/-- **C96** (finding). An index that is missing or cannot be read counts as 0, which the
refraction takes as 1: the glass becomes air. -/
theorem C96_blank_index (num : PyStr → Option ℝ) (c : PyStr) (h : c = [] ∨ num c = none) :
    orOne (cellNumber num c) = 1 := by
  have : cellNumber num c = 0 := by
    unfold cellNumber
    rcases h with rfl | h
    · rfl
    · rw [h]; split_ifs <;> rfl
  unfold orOne
  rw [if_pos this]

/-! ## The hypotheses can be met -/

/-- A telescope of a mirror and a focal plane, with a blank line and blanks around cells. -/
def exampleOptics : List (List PyStr) :=
  [["2 surfaces".toList], [" Type".toList, "Diam".toList, "Curv".toList, "Z".toList, "A4".toList],
    [], ["Mirror ".toList, "2".toList, "0.1".toList], [" ".toList],
    ["".toList, "1".toList, "".toList, "-5".toList, "".toList, "  ".toList]]

example : unpack exampleOptics =
    [["2 surfaces".toList, [], [], [], []],
      ["Type".toList, "Diam".toList, "Curv".toList, "Z".toList, "A4".toList],
      ["Mirror".toList, "2".toList, "0.1".toList, [], []],
      [[], "1".toList, [], "-5".toList, []]] := by decide

example : ∀ h ∈ ["Type".toList, "Diam".toList, "Curv".toList, "Z".toList, "A4".toList],
    ∃ a, getOpticsAttribute h = .ok a := by
  intro h hh
  simp only [List.mem_cons, List.not_mem_nil, or_false] at hh
  rcases hh with rfl | rfl | rfl | rfl | rfl
  · exact ⟨1, by rfl⟩
  · exact ⟨2, by rfl⟩
  · exact ⟨4, by rfl⟩
  · exact ⟨8, by rfl⟩
  · exact ⟨15, by rfl⟩

example (num : PyStr → Option ℝ) :
    let raw := [["1 glass".toList], ["name".toList, "i".toList], ["BK7".toList, "1.5".toList]]
    ∃ m, getMedia num (some raw) ["BK7".toList, []] ["i".toList] = .ok m ∧
      findRefraction num m "i".toList [] = .ok 1 := by
  intro raw
  have hT : unpack raw = ["1 glass".toList, []] :: ["name".toList, "i".toList] ::
      [["BK7".toList, "1.5".toList]] := by decide
  obtain ⟨h1, -, -⟩ := C96_media num raw ["BK7".toList, []] ["i".toList] _ _ _ hT (by simp) (by simp)
  obtain ⟨m, hm⟩ := h1.2 ⟨by decide, by
    intro g hg
    simp only [List.mem_cons, List.not_mem_nil, or_false] at hg
    rcases hg with rfl | rfl
    · right; right; exact ⟨_, List.mem_cons_self, rfl⟩
    · left; rfl, by
    intro w hw
    simp only [List.mem_cons, List.not_mem_nil, or_false] at hw
    subst hw
    right; decide⟩
  exact ⟨m, hm, rfl⟩

end Verif.Props.RayTables
