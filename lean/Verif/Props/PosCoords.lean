import Verif.Model.PosCoords
import Verif.Props.Int2ptl
import Verif.Props.GetPosmoves
import Mathlib.Algebra.Order.Ring.Rat

/-!
# Property C77: expected positions from the data base (`bin/get_poscoords`)
-/

namespace Verif.Props.PosCoords
open Verif.Py Verif.Model.Int2ptl Verif.Model.Dbutil Verif.Model.PosCoords Verif.Spec Verif.Lemmas
open Verif.Props Verif.Props.Int2ptl

variable {ι : Type}

/-! ### What is expected -/

/-- The moves asked for: those of the exposure, or those with the latest time. -/
def Wanted (moves : List (Move ι)) (expid : Option ℤ) (iter : ℤ) (m : Move ι) : Prop :=
  m ∈ moves ∧ match expid with
    | some e => m.exp = some e ∧ m.iter = some iter
    | none => ∀ m' ∈ moves, m'.time ≤ m.time

/-- `c` is the calibration in force just before time `t`: the latest one recorded before. -/
def InForce (cal : List CalRow) (t : ℚ) (c : Cal) : Prop :=
  ∃ r ∈ cal, r.cal = c ∧ r.time < t ∧ ∀ r' ∈ cal, r'.time < t → r'.time ≤ r.time

/-! ### Lemmas -/

theorem query_spec (moves : List (Move ι)) (expid : Option ℤ) (iter : ℤ) (sel : List (Move ι)) (h : query moves expid iter = .ok sel) :
    sel.Sublist moves ∧ ∀ m, m ∈ sel ↔ Wanted moves expid iter m := by
  unfold query at h
  cases expid with
  | some e =>
    injection h with h
    subst h
    refine ⟨List.filter_sublist, fun m => ?_⟩
    rw [List.mem_filter, decide_eq_true_eq]
    rfl
  | none =>
    dsimp only at h
    cases hm : (moves.map Move.time).max? with
    | none => rw [hm] at h; cases h
    | some t =>
      rw [hm] at h
      injection h with h
      subst h
      rw [List.max?_eq_some_iff] at hm
      refine ⟨List.filter_sublist, fun m => ?_⟩
      rw [List.mem_filter, decide_eq_true_eq]
      constructor
      · rintro ⟨h1, h2⟩
        exact ⟨h1, fun m' hm' => by rw [h2]; exact hm.2 _ (List.mem_map_of_mem hm')⟩
      · rintro ⟨h1, h2⟩
        refine ⟨h1, le_antisymm (hm.2 _ (List.mem_map_of_mem h1)) ?_⟩
        obtain ⟨m', hm', e⟩ := List.mem_map.1 hm.1
        rw [← e]
        exact h2 m' hm'

theorem calibAt_iff (cal : List CalRow) (t : ℚ) (c : Cal) :
    calibAt cal t = .ok c → ∃ r ∈ cal, r.cal = c ∧ r.time < t := by
  intro h
  unfold calibAt at h
  cases hl : (cal.filter fun c => decide (c.time < t)).getLast? with
  | none => rw [hl] at h; cases h
  | some r =>
    rw [hl] at h
    injection h with h
    have := List.mem_of_getLast? hl
    rw [List.mem_filter, decide_eq_true_eq] at this
    exact ⟨r, this.1, h, this.2⟩

theorem calibAt_inForce (cal : List CalRow) (hs : cal.Pairwise fun a b => a.time ≤ b.time) (t : ℚ) (c : Cal) (h : calibAt cal t = .ok c) :
    InForce cal t c := by
  unfold calibAt at h
  cases hl : (cal.filter fun c => decide (c.time < t)).getLast? with
  | none => rw [hl] at h; cases h
  | some r =>
    rw [hl] at h
    injection h with h
    have hm := List.mem_of_getLast? hl
    rw [List.mem_filter, decide_eq_true_eq] at hm
    refine ⟨r, hm.1, h, hm.2, fun r' hr' ht => ?_⟩
    obtain ⟨a, e⟩ := List.getLast?_eq_some_iff.1 hl
    have hs' := hs.filter (fun c : CalRow => decide (c.time < t))
    rw [e] at hs'
    have : r' ∈ a ++ [r] := by rw [← e]; exact List.mem_filter.2 ⟨hr', by simpa using ht⟩
    rcases List.mem_append.1 this with h1 | h1
    · exact (List.pairwise_append.1 hs').2.2 r' h1 r (by simp)
    · rw [List.mem_singleton.1 h1]

theorem calibAt_error (cal : List CalRow) (t : ℚ) : calibAt cal t = .error .indexError ↔ ∀ r ∈ cal, t ≤ r.time := by
  unfold calibAt
  cases hl : (cal.filter fun c => decide (c.time < t)).getLast? with
  | none =>
    rw [List.getLast?_eq_none_iff, List.filter_eq_nil_iff] at hl
    simp only [true_iff]
    intro c hc
    simpa using hl c hc
  | some r =>
    have hm := List.mem_of_getLast? hl
    rw [List.mem_filter, decide_eq_true_eq] at hm
    constructor
    · intro h; cases h
    · intro h; exact absurd hm.2 (not_lt.2 (h r hm.1))

theorem calibAt_cases (cal : List CalRow) (t : ℚ) : calibAt cal t = .error .indexError ∨ ∃ c, calibAt cal t = .ok c := by
  unfold calibAt
  cases (cal.filter fun c => decide (c.time < t)).getLast? with
  | none => exact .inl rfl
  | some r => exact .inr ⟨_, rfl⟩

theorem joined_append (cal : List CalRow) (ts : List ℚ) (t : ℚ) :
    joined cal (ts ++ [t]) = (joined cal ts >>= fun _ => calibAt cal t) := by
  unfold joined
  rw [List.foldlM_append]
  congr 1
  funext c
  rw [List.foldlM_cons]
  cases calibAt cal t <;> rfl

/-- The loop: it needs a calibration before every time, and keeps the one of the last. -/
theorem joined_iff (cal : List CalRow) (ts : List ℚ) :
    (joined cal ts = .error .indexError ↔ ∃ t ∈ ts, ∀ r ∈ cal, t ≤ r.time) ∧
    ∀ c, joined cal ts = .ok c → (∀ t ∈ ts, ∃ c', calibAt cal t = .ok c') ∧ ∀ t, ts.getLast? = some t → calibAt cal t = .ok c := by
  induction ts using List.reverseRecOn with
  | nil =>
    constructor
    · constructor
      · intro h; cases h
      · rintro ⟨t, ht, -⟩; cases ht
    · intro c _
      exact ⟨by simp, by simp⟩
  | append_singleton ts t ih =>
    rw [joined_append]
    cases hj : joined cal ts with
    | error e =>
      have he : e = .indexError := by
        clear ih
        induction ts using List.reverseRecOn generalizing e with
        | nil => cases hj
        | append_singleton ts t' ih' =>
          rw [joined_append] at hj
          cases hj' : joined cal ts with
          | error e' =>
            rw [hj'] at hj
            injection hj with hj
            rw [← hj]
            exact ih' e' hj'
          | ok c =>
            rw [hj'] at hj
            rcases calibAt_cases cal t' with h | ⟨c', h⟩
            · rw [show (Except.ok c >>= fun _ => calibAt cal t') = calibAt cal t' from rfl, h] at hj
              injection hj with hj
              exact hj.symm
            · rw [show (Except.ok c >>= fun _ => calibAt cal t') = calibAt cal t' from rfl, h] at hj
              cases hj
      subst he
      obtain ⟨t0, ht0, h0⟩ := ih.1.1 hj
      refine ⟨⟨fun _ => ⟨t0, by simp [ht0], h0⟩, fun _ => rfl⟩, fun c h => ?_⟩
      cases h
    | ok c0 =>
      rw [show (Except.ok c0 >>= fun _ => calibAt cal t) = calibAt cal t from rfl]
      obtain ⟨a, -⟩ := ih.2 c0 hj
      refine ⟨⟨fun h => ⟨t, by simp, (calibAt_error cal t).1 h⟩, ?_⟩, fun c h => ⟨?_, ?_⟩⟩
      · rintro ⟨t0, ht0, h0⟩
        rcases List.mem_append.1 ht0 with h1 | h1
        · obtain ⟨c', hc'⟩ := a t0 h1
          rw [(calibAt_error cal t0).2 h0] at hc'
          cases hc'
        · rw [List.mem_singleton.1 h1] at h0
          exact (calibAt_error cal t).2 h0
      · intro t0 ht0
        rcases List.mem_append.1 ht0 with h1 | h1
        · exact a t0 h1
        · rw [List.mem_singleton.1 h1]; exact ⟨c, h⟩
      · intro t0 ht0
        rw [List.getLast?_append] at ht0
        simp at ht0
        rw [← ht0]; exact h

theorem joined_cases (cal : List CalRow) (ts : List ℚ) : joined cal ts = .error .indexError ∨ ∃ c, joined cal ts = .ok c := by
  induction ts using List.reverseRecOn with
  | nil => exact .inr ⟨_, rfl⟩
  | append_singleton ts t ih =>
    rw [joined_append]
    rcases ih with h | ⟨c, h⟩
    · rw [h]; exact .inl rfl
    · rw [h]; exact calibAt_cases cal t

theorem petalTable_inv (db : Db ι) (expid : Option ℤ) (iter : ℤ) (petal : ℤ) (t : List (Row ι)) (h : petalTable db expid iter petal = .ok t) :
    ∃ loc sel, getPetalLoc petal = .ok loc ∧ query (db.moves petal) expid iter = .ok sel ∧
      List.Forall₂ (fun m r => r.loc = loc ∧ r.move = m ∧ joined (db.calib petal m.pos) (sel.map Move.time) = .ok r.cal) sel t := by
  unfold petalTable at h
  obtain ⟨loc, e1, h⟩ := bind_ok h
  obtain ⟨sel, e2, h⟩ := bind_ok h
  refine ⟨loc, sel, e1, e2, ((Gpm.mapM_iff _ _ _).1 h).imp fun m r hr => ?_⟩
  obtain ⟨c, e3, hr⟩ := bind_ok hr
  injection hr with hr
  subst hr
  exact ⟨rfl, rfl, e3⟩

theorem int2ptl_one (t p : ℝ) (c : Cal) : int2ptl [t] [p] [c.r1] [c.r2] [c.tOff] [c.pOff] [c.x] [c.y] =
    .ok ([(Model.Xy2qs.flat2ptl (tip c t p).1 (tip c t p).2).1], [(Model.Xy2qs.flat2ptl (tip c t p).1 (tip c t p).2).2]) :=
  int2ptl_run 1 (fun _ => t) (fun _ => p) (fun _ => c)

/-- The expected position: on the petal, at the tip of the arms in flattened coordinates; then the rigid motion of the petal. -/
def Expected (al : Model.Ptl2fp.Dict) (r2z : ℝ → ℝ) (loc : ℤ) (m : Move ι) (c : Cal) (ptl fp : ℝ × ℝ) : Prop :=
  (∃ a s, 0 ≤ s ∧ tip c m.t m.p = (s * Real.cos a, s * Real.sin a) ∧
    ptl = (Model.Xy2qs.s2r s * Real.cos a, Model.Xy2qs.s2r s * Real.sin a)) ∧
  (radius (tip c m.t m.p) ≤ 431 → dist2 (Model.Xy2qs.ptl2flat ptl.1 ptl.2) (tip c m.t m.p) ≤ 5 / 1000) ∧
  ∃ q, Model.Ptl2fp.ptl2fp al loc.toNat ![ptl.1, ptl.2, r2z (Real.sqrt (ptl.1 ^ 2 + ptl.2 ^ 2))] = .ok q ∧ fp = (q 0, q 1)

theorem expect_inv (al : Model.Ptl2fp.Dict) (r2z : ℝ → ℝ) (r : Row ι) (o : Out ι) (h : expect al r2z r = .ok o) :
    o.row = r ∧ Expected al r2z r.loc r.move r.cal o.ptl o.fp := by
  unfold expect at h
  rw [int2ptl_one] at h
  obtain ⟨xy, e0, h⟩ := bind_ok h
  injection e0 with e0
  subst e0
  obtain ⟨x, e1, h⟩ := bind_ok h
  obtain ⟨y, e2, h⟩ := bind_ok h
  obtain ⟨q, e3, h⟩ := bind_ok h
  injection h with h
  subst h
  have h1 : x = (Model.Xy2qs.flat2ptl (tip r.cal r.move.t r.move.p).1 (tip r.cal r.move.t r.move.p).2).1 := by
    have := getIdx_ok e1
    simpa using this.symm
  have h2 : y = (Model.Xy2qs.flat2ptl (tip r.cal r.move.t r.move.p).1 (tip r.cal r.move.t r.move.p).2).2 := by
    have := getIdx_ok e2
    simpa using this.symm
  obtain ⟨x', y', k1, k2⟩ := C76_int2ptl 1 (fun _ => r.move.t) (fun _ => r.move.p) (fun _ => r.cal)
  have k3 := int2ptl_run 1 (fun _ => r.move.t) (fun _ => r.move.p) (fun _ => r.cal)
  rw [k3] at k1
  injection k1 with k1
  injection k1 with k4 k5
  have k4 : x = x' 0 := by rw [h1]; simpa [col] using k4
  have k5 : y = y' 0 := by rw [h2]; simpa [col] using k5
  refine ⟨rfl, ?_, ?_, q, ?_, rfl⟩
  · rw [k4, k5]; exact (k2 0).1
  · rw [k4, k5]; exact (k2 0).2
  · exact e3

theorem forall2_flatten {α β γ : Type} (R : γ → α → β → Prop) (f : γ → List α) :
    ∀ (ps : List γ) (ts : List (List β)), List.Forall₂ (fun p t => List.Forall₂ (R p) (f p) t) ps ts →
      List.Forall₂ (fun (pa : γ × α) b => R pa.1 pa.2 b) (ps.flatMap fun p => (f p).map fun a => (p, a)) ts.flatten := by
  intro ps ts h
  induction h with
  | nil => exact .nil
  | cons h1 _ ih =>
    rw [List.flatMap_cons, List.flatten_cons]
    refine List.rel_append ?_ ih
    rw [List.forall₂_map_left_iff]
    exact h1

/-- **C77** The output: the moves asked for, petal by petal, each once and in the order of the data base, with the location of the petal,
a calibration of the positioner — the one in force at the time of the *last* of the moves of the petal — and the expected positions for it. -/
theorem C77_rows (db : Db ι) (hs : ∀ p i, (db.calib p i).Pairwise fun a b => a.time ≤ b.time) (al : Model.Ptl2fp.Dict) (r2z : ℝ → ℝ)
    (petals : List ℤ) (expid : Option ℤ) (iter : ℤ) (out : List (Out ι)) (h : run db al r2z petals expid iter = .ok out) :
    ∃ sel : ℤ → List (Move ι), (∀ p ∈ petals, (sel p).Sublist (db.moves p) ∧ ∀ m, m ∈ sel p ↔ Wanted (db.moves p) expid iter m) ∧
      List.Forall₂ (fun (pm : ℤ × Move ι) o => o.row.move = pm.2 ∧ getPetalLoc pm.1 = .ok o.row.loc ∧
          (∃ m', (sel pm.1).getLast? = some m' ∧ InForce (db.calib pm.1 pm.2.pos) m'.time o.row.cal) ∧
          Expected al r2z o.row.loc pm.2 o.row.cal o.ptl o.fp)
        (petals.flatMap fun p => (sel p).map fun m => (p, m)) out := by
  unfold run at h
  obtain ⟨tables, e1, h⟩ := bind_ok h
  split_ifs at h with hne
  have ht := (Gpm.mapM_iff _ _ _).1 e1
  have ho := (Gpm.mapM_iff _ _ _).1 h
  refine ⟨fun p => match query (db.moves p) expid iter with | .ok l => l | .error _ => [], ?_, ?_⟩
  · intro p hp
    obtain ⟨t, hpt⟩ : ∃ t, petalTable db expid iter p = .ok t := by
      obtain ⟨i, hi, rfl⟩ := List.getElem_of_mem hp
      exact ⟨_, List.Forall₂.get ht hi (by rw [← ht.length_eq]; exact hi)⟩
    obtain ⟨loc, sel, -, e3, -⟩ := petalTable_inv db expid iter p t hpt
    dsimp only
    rw [e3]
    exact query_spec _ _ _ _ e3
  · have h1 := forall2_flatten (fun (p : ℤ) (m : Move ι) (r : Row ι) => r.move = m ∧ getPetalLoc p = .ok r.loc ∧
        ∃ m', (match query (db.moves p) expid iter with | .ok l => l | .error _ => []).getLast? = some m' ∧
          InForce (db.calib p m.pos) m'.time r.cal)
      (fun p => match query (db.moves p) expid iter with | .ok l => l | .error _ => []) petals tables (ht.imp (by
        intro p t hpt
        obtain ⟨loc, sel, e2, e3, h2⟩ := petalTable_inv db expid iter p t hpt
        simp only [e3]
        refine (List.forall₂_iff_get.2 ⟨h2.length_eq, fun i hi hi' => ?_⟩)
        obtain ⟨q1, q2, q3⟩ := List.Forall₂.get h2 hi hi'
        refine ⟨q2, by rw [e2, q1], ?_⟩
        have hsel : sel ≠ [] := by rintro rfl; cases hi
        refine ⟨sel.getLast hsel, List.getLast?_eq_some_getLast hsel, ?_⟩
        refine calibAt_inForce _ (hs _ _) _ _ (((joined_iff _ _).2 _ q3).2 _ ?_)
        rw [List.getLast?_map, List.getLast?_eq_some_getLast hsel]
        rfl))
    refine List.forall₂_iff_get.2 ⟨h1.length_eq.trans ho.length_eq, fun i hi hi' => ?_⟩
    have hj : i < tables.flatten.length := by rw [← h1.length_eq]; exact hi
    obtain ⟨a1, a2, a3⟩ := List.Forall₂.get h1 hi hj
    obtain ⟨b1, b2⟩ := expect_inv al r2z _ _ (List.Forall₂.get ho hj hi')
    rw [b1]
    refine ⟨a1, a2, a3, ?_⟩
    rw [← a1]
    exact b2

theorem mem_left {α β : Type} {R : α → β → Prop} {l : List α} {r : List β} (h : List.Forall₂ R l r) : ∀ a ∈ l, ∃ b ∈ r, R a b := by
  induction h with
  | nil => intro a ha; cases ha
  | cons h1 _ ih =>
    intro a ha
    rcases List.mem_cons.1 ha with rfl | ha
    · exact ⟨_, by simp, h1⟩
    · obtain ⟨b, hb, hab⟩ := ih a ha
      exact ⟨b, by simp [hb], hab⟩

theorem mem_right {α β : Type} {R : α → β → Prop} {l : List α} {r : List β} (h : List.Forall₂ R l r) : ∀ b ∈ r, ∃ a ∈ l, R a b := by
  induction h with
  | nil => intro b hb; cases hb
  | cons h1 _ ih =>
    intro b hb
    rcases List.mem_cons.1 hb with rfl | hb
    · exact ⟨_, by simp, h1⟩
    · obtain ⟨a, ha, hab⟩ := ih b hb
      exact ⟨a, by simp [ha], hab⟩

/-- **C77** When the moves asked for on a petal all have one time, in particular without an exposure id (the most recent moves of each
petal), the calibration of every row is the one in force when its own move was recorded. -/
theorem C77_own_time (db : Db ι) (hs : ∀ p i, (db.calib p i).Pairwise fun a b => a.time ≤ b.time) (al : Model.Ptl2fp.Dict) (r2z : ℝ → ℝ)
    (petals : List ℤ) (expid : Option ℤ) (iter : ℤ) (out : List (Out ι)) (h : run db al r2z petals expid iter = .ok out)
    (hone : expid = none ∨ ∀ p ∈ petals, ∀ m m', Wanted (db.moves p) expid iter m → Wanted (db.moves p) expid iter m' → m.time = m'.time) :
    ∀ o ∈ out, ∃ p ∈ petals, Wanted (db.moves p) expid iter o.row.move ∧ getPetalLoc p = .ok o.row.loc ∧
      InForce (db.calib p o.row.move.pos) o.row.move.time o.row.cal := by
  have hone' : ∀ p ∈ petals, ∀ m m', Wanted (db.moves p) expid iter m → Wanted (db.moves p) expid iter m' → m.time = m'.time := by
    rcases hone with rfl | hone
    · rintro p - m m' ⟨h1, h2⟩ ⟨h3, h4⟩
      exact le_antisymm (h4 m h1) (h2 m' h3)
    · exact hone
  obtain ⟨sel, c1, c2⟩ := C77_rows db hs al r2z petals expid iter out h
  intro o ho
  obtain ⟨⟨p, m⟩, hpm, q1, q2, ⟨m', q3, q4⟩, -⟩ := mem_right c2 o ho
  obtain ⟨p', hp', hm⟩ := List.mem_flatMap.1 hpm
  obtain ⟨m0, hm0, e⟩ := List.mem_map.1 hm
  simp only [Prod.mk.injEq] at e
  obtain ⟨rfl, rfl⟩ := e
  have w1 := ((c1 _ hp').2 _).1 hm0
  have w2 := ((c1 _ hp').2 _).1 (List.mem_of_getLast? q3)
  dsimp only at q1 q2 q4
  refine ⟨p', hp', by rw [q1]; exact w1, q2, ?_⟩
  rw [q1, hone' _ hp' _ _ w1 w2]
  exact q4

/-- **C77** When the script works: every petal is known, has moves at all (without exposure id), every positioner asked for has a
calibration older than *every* move asked for on its petal, there is a row, and the alignment of the petals with rows is known. -/
theorem C77_success (db : Db ι) (al : Model.Ptl2fp.Dict) (r2z : ℝ → ℝ) (petals : List ℤ) (expid : Option ℤ) (iter : ℤ) :
    (∃ out, run db al r2z petals expid iter = .ok out) ↔
      (∀ p ∈ petals, (∃ loc, getPetalLoc p = .ok loc ∧ ∀ m, Wanted (db.moves p) expid iter m → (al loc.toNat).isSome) ∧
        (expid = none → db.moves p ≠ []) ∧
        ∀ m m', Wanted (db.moves p) expid iter m → Wanted (db.moves p) expid iter m' → ∃ r ∈ db.calib p m.pos, r.time < m'.time) ∧
      ∃ p ∈ petals, ∃ m, Wanted (db.moves p) expid iter m := by
  have hexp : ∀ r : Row ι, (∃ o, expect al r2z r = .ok o) ↔ (al r.loc.toNat).isSome := by
    intro r
    unfold expect
    rw [int2ptl_one]
    show (∃ o, (Model.Ptl2fp.ptl2fp al r.loc.toNat _ >>= fun q => _) = Except.ok o) ↔ _
    unfold Model.Ptl2fp.ptl2fp Model.Ptl2fp.lookup
    cases al r.loc.toNat with
    | none =>
      constructor
      · rintro ⟨o, ho⟩; cases ho
      · intro h; cases h
    | some a => exact ⟨fun _ => rfl, fun _ => ⟨_, rfl⟩⟩
  have hq : ∀ p sel, query (db.moves p) expid iter = .ok sel → expid = none → db.moves p ≠ [] := by
    rintro p sel h rfl hnil
    rw [hnil] at h
    cases h
  constructor
  · rintro ⟨out, h⟩
    unfold run at h
    obtain ⟨tables, e1, h⟩ := bind_ok h
    split_ifs at h with hne
    have ht := (Gpm.mapM_iff _ _ _).1 e1
    have ho := (Gpm.mapM_iff _ _ _).1 h
    have hal : ∀ t ∈ tables, ∀ r ∈ t, (al r.loc.toNat).isSome := by
      intro t ht r hr
      obtain ⟨o, -, e⟩ := mem_left ho r (List.mem_flatten.2 ⟨t, ht, hr⟩)
      exact (hexp r).1 ⟨o, e⟩
    refine ⟨fun p hp => ?_, ?_⟩
    · obtain ⟨t, htm, hpt⟩ := mem_left ht p hp
      obtain ⟨loc, sel, e2, e3, h2⟩ := petalTable_inv db expid iter p t hpt
      have hsel := (query_spec _ _ _ _ e3).2
      refine ⟨⟨loc, e2, fun m hm => ?_⟩, hq p sel e3, fun m m' hm hm' => ?_⟩
      · obtain ⟨r, hr, q1, -, -⟩ := mem_left h2 m ((hsel m).2 hm)
        rw [← q1]
        exact hal t htm r hr
      · obtain ⟨r, hr, -, -, q3⟩ := mem_left h2 m ((hsel m).2 hm)
        obtain ⟨c, hc⟩ := ((joined_iff _ _).2 _ q3).1 m'.time (List.mem_map_of_mem ((hsel m').2 hm'))
        obtain ⟨r', hr', -, h4⟩ := calibAt_iff _ _ _ hc
        exact ⟨r', hr', h4⟩
    · obtain ⟨r, hr⟩ := List.exists_mem_of_ne_nil tables.flatten (fun e => hne (by rw [e]; rfl))
      obtain ⟨t, htm, hrt⟩ := List.mem_flatten.1 hr
      obtain ⟨p, hp, hpt⟩ := mem_right ht t htm
      obtain ⟨loc, sel, e2, e3, h2⟩ := petalTable_inv db expid iter p t hpt
      obtain ⟨m, hm, -⟩ := mem_right h2 r hrt
      exact ⟨p, hp, m, ((query_spec _ _ _ _ e3).2 m).1 hm⟩
  · rintro ⟨hall, p0, hp0, m0, hm0⟩
    have hquery : ∀ p ∈ petals, ∃ sel, query (db.moves p) expid iter = .ok sel := by
      intro p hp
      unfold query
      cases he : expid with
      | some e => exact ⟨_, rfl⟩
      | none =>
        cases hm : ((db.moves p).map Move.time).max? with
        | none =>
          rw [List.max?_eq_none_iff, List.map_eq_nil_iff] at hm
          exact absurd hm ((hall p hp).2.1 he)
        | some t => exact ⟨_, rfl⟩
    have htab : ∀ p ∈ petals, ∃ t, petalTable db expid iter p = .ok t ∧ (∀ r ∈ t, (al r.loc.toNat).isSome) ∧
        ∀ m, Wanted (db.moves p) expid iter m → t ≠ [] := by
      intro p hp
      obtain ⟨⟨loc, e1, a1⟩, -, a3⟩ := hall p hp
      obtain ⟨sel, e2⟩ := hquery p hp
      have hsel := (query_spec _ _ _ _ e2).2
      have hrows : ∀ l : List (Move ι), (∀ m ∈ l, m ∈ sel) → ∃ t, (l.mapM fun m => do
          let c ← joined (db.calib p m.pos) (sel.map Move.time)
          return (⟨loc, m, c⟩ : Row ι)) = .ok t := by
        intro l
        induction l with
        | nil => intro _; exact ⟨[], rfl⟩
        | cons m l ih =>
          intro hl
          obtain ⟨t, e⟩ := ih fun m' hm' => hl m' (by simp [hm'])
          have hj : ∃ c, joined (db.calib p m.pos) (sel.map Move.time) = .ok c := by
            rcases joined_cases (db.calib p m.pos) (sel.map Move.time) with h | h
            · obtain ⟨t', ht', hb⟩ := (joined_iff _ _).1.1 h
              obtain ⟨m', hm', rfl⟩ := List.mem_map.1 ht'
              obtain ⟨r, hr, hlt⟩ := a3 m m' ((hsel m).1 (hl m (by simp))) ((hsel m').1 hm')
              exact absurd hlt (not_lt.2 (hb r hr))
            · exact h
          obtain ⟨c, hc⟩ := hj
          refine ⟨⟨loc, m, c⟩ :: t, ?_⟩
          rw [List.mapM_cons, hc, show (Except.ok c >>= fun c => (pure (⟨loc, m, c⟩ : Row ι) : Except PyErr (Row ι))) = .ok ⟨loc, m, c⟩ from rfl]
          rw [e]
          rfl
      obtain ⟨t, e3⟩ := hrows sel fun m hm => hm
      have e4 : petalTable db expid iter p = .ok t := by
        unfold petalTable
        rw [e1]
        show (query (db.moves p) expid iter >>= _) = _
        rw [e2]
        exact e3
      refine ⟨t, e4, ?_, ?_⟩
      · obtain ⟨loc', sel', f1, f2, f3⟩ := petalTable_inv db expid iter p t e4
        rw [e1] at f1
        injection f1 with f1
        rw [e2] at f2
        injection f2 with f2
        subst f1 f2
        intro r hr
        obtain ⟨m, hm, q1, -⟩ := mem_right f3 r hr
        rw [q1]
        exact a1 m ((hsel m).1 hm)
      · obtain ⟨loc', sel', f1, f2, f3⟩ := petalTable_inv db expid iter p t e4
        rw [e2] at f2
        injection f2 with f2
        subst f2
        rintro m hm rfl
        obtain ⟨r, hr, -⟩ := mem_left f3 m ((hsel m).2 hm)
        cases hr
    have htabs : ∀ l : List ℤ, (∀ p ∈ l, p ∈ petals) → ∃ ts, l.mapM (petalTable db expid iter) = .ok ts ∧
        (∀ t ∈ ts, ∀ r ∈ t, (al r.loc.toNat).isSome) ∧ (p0 ∈ l → ts.flatten ≠ []) := by
      intro l
      induction l with
      | nil => intro _; exact ⟨[], rfl, by simp, by simp⟩
      | cons p l ih =>
        intro hl
        obtain ⟨ts, e, f1, f2⟩ := ih fun p' hp' => hl p' (by simp [hp'])
        obtain ⟨t, e', g1, g2⟩ := htab p (hl p (by simp))
        refine ⟨t :: ts, ?_, ?_, ?_⟩
        · rw [List.mapM_cons, e', e]; rfl
        · intro t' ht'
          rcases List.mem_cons.1 ht' with rfl | ht'
          · exact g1
          · exact f1 t' ht'
        · intro h0 hnil
          rw [List.flatten_cons, List.append_eq_nil_iff] at hnil
          rcases List.mem_cons.1 h0 with rfl | h0
          · exact g2 m0 hm0 hnil.1
          · exact f2 h0 hnil.2
    obtain ⟨ts, e, f1, f2⟩ := htabs petals fun p hp => hp
    have hlast : ∀ l : List (Row ι), (∀ r ∈ l, (al r.loc.toNat).isSome) → ∃ out, l.mapM (expect al r2z) = .ok out := by
      intro l
      induction l with
      | nil => intro _; exact ⟨[], rfl⟩
      | cons r l ih =>
        intro hl
        obtain ⟨os, e⟩ := ih fun r' hr' => hl r' (by simp [hr'])
        obtain ⟨o, eo⟩ := (hexp r).2 (hl r (by simp))
        exact ⟨o :: os, by rw [List.mapM_cons, eo, e]; rfl⟩
    obtain ⟨out, eo⟩ := hlast ts.flatten fun r hr => by
      obtain ⟨t, ht, hrt⟩ := List.mem_flatten.1 hr
      exact f1 t ht r hrt
    refine ⟨out, ?_⟩
    unfold run
    rw [e]
    show (if ts.flatten.length = 0 then _ else _) = _
    rw [if_neg (fun h => f2 hp0 (List.length_eq_zero_iff.1 h)), eo]

/-- Two moves of one exposure, at times 1 and 3, of the positioners 1 and 2 of petal 4; both were calibrated at times 0 and 2. -/
noncomputable def twoMoves : Db ℕ :=
  ⟨fun p => if p = 4 then [⟨1, 1, some 7, some 0, 0, 0⟩, ⟨2, 3, some 7, some 0, 0, 0⟩] else [],
   fun _ _ => [⟨0, ⟨3, 3, 0, 0, 0, 0⟩⟩, ⟨2, ⟨3, 3, 0, 0, 1, 0⟩⟩]⟩

/-- **C77** (finding) With an exposure id the calibration of a row can be one recorded *after* its move: it is the one in force at the
time of the last move of the exposure on the petal. -/
theorem C77_later_calibration : ∃ out, run twoMoves (fun _ => some ⟨0, 0, 0, 0, 0, 0⟩) (fun _ => 0) [4] (some 7) 0 = .ok out ∧
    ∃ o ∈ out, o.row.move.time = 1 ∧ o.row.move.pos = 1 ∧ InForce (twoMoves.calib 4 1) 1 ⟨3, 3, 0, 0, 0, 0⟩ ∧
      o.row.cal = ⟨3, 3, 0, 0, 1, 0⟩ ∧ ¬ InForce (twoMoves.calib 4 1) 1 o.row.cal := by
  have hs : ∀ p i, (twoMoves.calib p i).Pairwise fun a b => a.time ≤ b.time := by
    intro p i
    simp [twoMoves]
  have hcal : ∀ t c, InForce (twoMoves.calib 4 1) t c → c = if t ≤ 2 then ⟨3, 3, 0, 0, 0, 0⟩ else ⟨3, 3, 0, 0, 1, 0⟩ := by
    rintro t c ⟨r, hr, rfl, h1, h2⟩
    have hr' : r = ⟨0, ⟨3, 3, 0, 0, 0, 0⟩⟩ ∨ r = ⟨2, ⟨3, 3, 0, 0, 1, 0⟩⟩ := by simpa [twoMoves] using hr
    by_cases ht : t ≤ 2
    · rw [if_pos ht]
      rcases hr' with rfl | rfl
      · rfl
      · exact absurd h1 (not_lt.2 ht)
    · rw [if_neg ht]
      rcases hr' with rfl | rfl
      · have := h2 ⟨2, ⟨3, 3, 0, 0, 1, 0⟩⟩ (by simp [twoMoves]) (not_le.1 ht)
        norm_num at this
      · rfl
  have hw : ∀ m, Wanted (twoMoves.moves 4) (some 7) 0 m ↔ m = ⟨1, 1, some 7, some 0, 0, 0⟩ ∨ m = ⟨2, 3, some 7, some 0, 0, 0⟩ := by
    intro m
    unfold Wanted
    simp only [twoMoves, if_true, List.mem_cons, List.not_mem_nil, or_false]
    constructor
    · exact fun h => h.1
    · rintro (rfl | rfl)
      · exact ⟨.inl rfl, rfl, rfl⟩
      · exact ⟨.inr rfl, rfl, rfl⟩
  obtain ⟨out, hout⟩ := (C77_success twoMoves (fun _ => some ⟨0, 0, 0, 0, 0, 0⟩) (fun _ => 0) [4] (some 7) 0).2 ⟨by
      intro p hp
      rw [List.mem_singleton] at hp
      subst hp
      refine ⟨⟨0, rfl, fun _ _ => rfl⟩, by simp, fun m m' _ hm' => ⟨⟨0, ⟨3, 3, 0, 0, 0, 0⟩⟩, by simp [twoMoves], ?_⟩⟩
      rcases (hw m').1 hm' with rfl | rfl <;> norm_num, 4, by simp, _, (hw _).2 (.inl rfl)⟩
  obtain ⟨sel, c1, c2⟩ := C77_rows twoMoves hs _ _ _ _ _ out hout
  have hsel4 : sel 4 = [⟨1, 1, some 7, some 0, 0, 0⟩, ⟨2, 3, some 7, some 0, 0, 0⟩] := by
    obtain ⟨s1, s2⟩ := c1 4 (by simp)
    have e : twoMoves.moves 4 = [⟨1, 1, some 7, some 0, 0, 0⟩, ⟨2, 3, some 7, some 0, 0, 0⟩] := by simp [twoMoves]
    rw [e] at s1
    apply s1.eq_of_length_le
    have m1 := (s2 _).2 ((hw _).2 (.inl rfl))
    have m2 := (s2 _).2 ((hw _).2 (.inr rfl))
    have hsub : [(⟨1, 1, some 7, some 0, 0, 0⟩ : Move ℕ), ⟨2, 3, some 7, some 0, 0, 0⟩] ⊆ sel 4 := by
      intro m hm
      rcases List.mem_cons.1 hm with rfl | hm
      · exact m1
      · rw [List.mem_singleton.1 hm]; exact m2
    have hnd : [(⟨1, 1, some 7, some 0, 0, 0⟩ : Move ℕ), ⟨2, 3, some 7, some 0, 0, 0⟩].Nodup := by
      rw [List.nodup_cons]
      refine ⟨?_, List.nodup_singleton _⟩
      intro h
      have := congrArg Move.pos (List.mem_singleton.1 h)
      simp at this
    exact (hnd.subperm hsub).length_le
  obtain ⟨o, ho, q1, -, ⟨m', q3, q4⟩, -⟩ := mem_left c2 (4, ⟨1, 1, some 7, some 0, 0, 0⟩) (by simp [hsel4])
  dsimp only at q1 q3 q4
  rw [hsel4] at q3
  have hm' : m' = ⟨2, 3, some 7, some 0, 0, 0⟩ := by simpa using q3.symm
  subst hm'
  have hc := hcal _ _ q4
  rw [if_neg (by norm_num)] at hc
  refine ⟨out, hout, o, ho, by rw [q1], by rw [q1], ?_, hc, ?_⟩
  · exact ⟨⟨0, ⟨3, 3, 0, 0, 0, 0⟩⟩, by simp [twoMoves], rfl, by norm_num, by
      intro r' hr' h
      have : r' = ⟨0, ⟨3, 3, 0, 0, 0, 0⟩⟩ ∨ r' = ⟨2, ⟨3, 3, 0, 0, 1, 0⟩⟩ := by simpa [twoMoves] using hr'
      rcases this with rfl | rfl
      · exact le_refl _
      · norm_num at h⟩
  · intro h
    have := hcal _ _ h
    rw [if_pos (by norm_num), hc] at this
    have := congrArg Cal.x this
    norm_num at this

/-- **C77** (finding) A positioner first calibrated between two moves of an exposure stops the script although there is a calibration
before its own move. -/
theorem C77_early_move_of_another (m m' : Move ℕ) (r : CalRow) (hm : m.exp = some 7 ∧ m.iter = some 0) (hm' : m'.exp = some 7 ∧ m'.iter = some 0)
    (h1 : m'.time ≤ r.time) (h2 : r.time < m.time) (al : Model.Ptl2fp.Dict) (r2z : ℝ → ℝ) (old : ℤ → ℕ → List CalRow) :
    InForce [r] m.time r.cal ∧
    ¬ ∃ out, run (⟨fun _ => [m', m], fun p i => if i = m.pos then [r] else old p i⟩ : Db ℕ) al r2z [4] (some 7) 0 = .ok out := by
  refine ⟨⟨r, by simp, rfl, h2, by simp⟩, ?_⟩
  rw [C77_success]
  rintro ⟨h, -⟩
  obtain ⟨-, -, h⟩ := h 4 (by simp)
  obtain ⟨r', hr', hlt⟩ := h m m' ⟨by simp, hm⟩ ⟨by simp, hm'⟩
  simp only [if_true, List.mem_singleton] at hr'
  subst hr'
  exact absurd hlt (not_lt.2 h1)

/-- **C77** (finding) An exposure without moves on the petals asked for is not an empty file but a TypeError. -/
theorem C77_nothing (db : Db ι) (al : Model.Ptl2fp.Dict) (r2z : ℝ → ℝ) (petals : List ℤ) (e iter : ℤ)
    (hp : ∀ p ∈ petals, 2 ≤ p ∧ p ≤ 11) (h : ∀ p ∈ petals, ∀ m ∈ db.moves p, ¬ (m.exp = some e ∧ m.iter = some iter)) :
    run db al r2z petals (some e) iter = .error .typeError := by
  have htab : ∀ p ∈ petals, petalTable db (some e) iter p = .ok [] := by
    intro p hp'
    obtain ⟨a, b⟩ := hp p hp'
    have hloc : ∃ loc, getPetalLoc p = .ok loc := by
      have : p = 2 ∨ p = 3 ∨ p = 4 ∨ p = 5 ∨ p = 6 ∨ p = 7 ∨ p = 8 ∨ p = 9 ∨ p = 10 ∨ p = 11 := by omega
      rcases this with rfl | rfl | rfl | rfl | rfl | rfl | rfl | rfl | rfl | rfl <;> exact ⟨_, rfl⟩
    obtain ⟨loc, e1⟩ := hloc
    have e2 : query (db.moves p) (some e) iter = .ok [] := by
      unfold query
      dsimp only
      rw [List.filter_eq_nil_iff.2]
      intro m hm
      simpa using h p hp' m hm
    unfold petalTable
    rw [e1, e2]
    rfl
  have hall : ∀ l : List ℤ, (∀ p ∈ l, p ∈ petals) → ∃ ts, l.mapM (petalTable db (some e) iter) = .ok ts ∧ ts.flatten = [] := by
    intro l
    induction l with
    | nil => intro _; exact ⟨[], rfl, rfl⟩
    | cons p l ih =>
      intro hl
      obtain ⟨ts, e1, e2⟩ := ih fun p' hp' => hl p' (by simp [hp'])
      refine ⟨[] :: ts, ?_, by simpa using e2⟩
      rw [List.mapM_cons, htab p (hl p (by simp)), e1]
      rfl
  obtain ⟨ts, e1, e2⟩ := hall petals fun p hp => hp
  unfold run
  rw [e1]
  show (if ts.flatten.length = 0 then _ else _) = _
  rw [if_pos (by rw [e2]; rfl)]

/-- The most recent move of the same data base: the script works, as in `C77_own_time`. -/
example : ∃ out, run twoMoves (fun _ => some ⟨0, 0, 0, 0, 0, 0⟩) (fun _ => 0) [4] none 0 = .ok out := by
  refine (C77_success _ _ _ _ _ _).2 ⟨?_, 4, by simp, ⟨2, 3, some 7, some 0, 0, 0⟩, by simp [twoMoves], ?_⟩
  · intro p hp
    rw [List.mem_singleton] at hp
    subst hp
    refine ⟨⟨0, rfl, fun _ _ => rfl⟩, by simp [twoMoves], fun m m' _ hm' => ⟨⟨0, ⟨3, 3, 0, 0, 0, 0⟩⟩, by simp [twoMoves], ?_⟩⟩
    have := hm'.1
    simp only [twoMoves, if_true, List.mem_cons, List.not_mem_nil, or_false] at this
    rcases this with rfl | rfl <;> norm_num
  · intro m' hm'
    simp only [twoMoves, if_true, List.mem_cons, List.not_mem_nil, or_false] at hm'
    rcases hm' with rfl | rfl <;> norm_num

end Verif.Props.PosCoords
