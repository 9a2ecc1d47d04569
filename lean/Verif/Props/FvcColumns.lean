import Verif.Model.FvcColumns
import Verif.Props.Match
import Verif.Props.RayRun
import Verif.Lemmas.Sort

/-!
# C103: columns of the output of fvc_proc
-/

namespace Verif.Props.FvcColumns
open Verif.Py Verif.Model.Match Verif.Model.FvcColumns Verif.Props Verif.Props.RayRun

variable {δ : Type} {n m : ℕ}

/-! ## Expected positions -/

/-- Where a row of the table of expected positions is expected to be. -/
noncomputable def place (c : Columns) (r : ExpRow δ) : Option ℝ × Option ℝ :=
  if c.x then (r.x, r.y)
  else if c.xexp then (r.xexp, r.yexp)
  else match r.q, r.s with
    | some q, some s => (some (Model.Xy2qs.s2r s * Real.cos (q * (Real.pi / 180))), some (Model.Xy2qs.s2r s * Real.sin (q * (Real.pi / 180))))
    | _, _ => (some (-99999), some (-99999))

/-- The columns of which the position can be taken. -/
def HasPlace (c : Columns) : Prop :=
  (c.x ∧ c.y) ∨ (c.x = false ∧ c.xexp ∧ c.yexp ∧ c.y = false) ∨ (c.x = false ∧ c.xexp = false ∧ c.q ∧ c.s)

/-- The columns of which the location can be taken. -/
def HasLocation (c : Columns) : Prop := c.loc ∨ (c.petal ∧ c.device)

/-- The location of a row. -/
def location (c : Columns) (r : ExpRow δ) : ℤ := if c.loc then r.loc else r.petal * 1000 + r.device

/-- The rows that are not pinholes. -/
def fibers (c : Columns) (rows : List (ExpRow δ)) : List (ExpRow δ) := rows.filter fun r => !c.pinhole || decide (r.pinhole = 0)

theorem qs (r : ExpRow δ) (c : Columns) (hx : c.x = false) (he : c.xexp = false) :
    (fromQS r).x = (place c r).1 ∧ (fromQS r).y = (place c r).2 ∧ (fromQS r).loc = r.loc ∧ (fromQS r).petal = r.petal ∧
    (fromQS r).device = r.device ∧ (fromQS r).pinhole = r.pinhole ∧ (fromQS r).info = r.info := by
  unfold fromQS place
  simp only [hx, he, Bool.false_eq_true, if_false]
  cases r.q <;> cases r.s <;> simp [Model.Xy2qs.qs2xy, Model.Trig.cosd, Model.Trig.sind, radians]

theorem mapM_map' {α β γ : Type} (g : α → β) (f : β → Except PyErr γ) (l : List α) : (l.map g).mapM f = l.mapM fun a => f (g a) := by
  induction l with
  | nil => rfl
  | cons a t ih => rw [List.map_cons, List.mapM_cons, List.mapM_cons, ih]

/-- What the matching sees of a row. -/
noncomputable def seen (c : Columns) (r : ExpRow δ) : Except PyErr (Expected δ) :=
  match place c r with
  | (some x, some y) => .ok ⟨location c r, (x, y), r.info⟩
  | _ => .error .valueError

theorem seen_ok (c : Columns) (r : ExpRow δ) (e : Expected δ) :
    seen c r = .ok e ↔ e.loc = location c r ∧ place c r = (some e.xy.1, some e.xy.2) ∧ e.info = r.info := by
  unfold seen
  rcases h : place c r with ⟨_ | x, _ | y⟩
  · simp
  · simp
  · simp
  · obtain ⟨l, ⟨a, b⟩, i⟩ := e
    simp only [Except.ok.injEq, Expected.mk.injEq, Prod.mk.injEq, Option.some.injEq]
    constructor
    · rintro ⟨rfl, ⟨rfl, rfl⟩, rfl⟩; simp
    · rintro ⟨rfl, ⟨rfl, rfl⟩, rfl⟩; simp

open Classical in
/-- The tail of the computation. -/
theorem tail_run (c c1 : Columns) (rows : List (ExpRow δ)) (g : ExpRow δ → ExpRow δ)
    (hc : c1.loc = c.loc ∧ c1.petal = c.petal ∧ c1.device = c.device ∧ c1.pinhole = c.pinhole)
    (hg : ∀ r, (g r).loc = r.loc ∧ (g r).petal = r.petal ∧ (g r).device = r.device ∧ (g r).pinhole = r.pinhole ∧ (g r).info = r.info)
    (hxy : c1.x = true → c1.y = true → ∀ r, (g r).x = (place c r).1 ∧ (g r).y = (place c r).2) :
    (((addLocation c1 (rows.map g)) >>= fun t => Except.ok (t.1, dropPinholes t.1 t.2)) >>= usable) =
      if (c1.x = true ∧ c1.y = true) ∧ HasLocation c then (fibers c rows).mapM (seen c) else .error .keyError := by
  obtain ⟨h1, h2, h3, h4⟩ := hc
  have key : ∀ (c2 : Columns) (k : ExpRow δ → ExpRow δ), c2.x = c1.x → c2.y = c1.y → c2.pinhole = c.pinhole →
      (∀ r, (k r).x = (g r).x ∧ (k r).y = (g r).y ∧ (k r).loc = location c r ∧ (k r).pinhole = r.pinhole ∧ (k r).info = r.info) →
      usable (c2, dropPinholes c2 (rows.map k)) = if c1.x = true ∧ c1.y = true then (fibers c rows).mapM (seen c) else .error .keyError := by
    intro c2 k e1 e2 e3 hk
    have hd : dropPinholes c2 (rows.map k) = (fibers c rows).map k := by
      unfold dropPinholes fibers
      rw [e3]
      cases c.pinhole with
      | false => simp
      | true =>
        simp only [if_true, Bool.not_true, Bool.false_or]
        rw [List.filter_map]
        congr 1
        apply List.filter_congr
        intro r _
        simp [(hk r).2.2.2.1]
    unfold usable
    dsimp only
    rw [e1, e2, hd]
    by_cases hx : c1.x = true ∧ c1.y = true
    · rw [if_pos hx, if_neg (by simp [hx.1, hx.2]), mapM_map']
      congr 1
      funext r
      obtain ⟨k1, k2, k3, k4, k5⟩ := hk r
      obtain ⟨g1, g2⟩ := hxy hx.1 hx.2 r
      rw [k1, k2, g1, g2]
      unfold seen
      rcases place c r with ⟨_ | x, _ | y⟩
      · rfl
      · rfl
      · rfl
      · dsimp only
        rw [k3, k5]
    · rw [if_neg hx, if_pos]
      rcases hb1 : c1.x <;> rcases hb2 : c1.y <;> simp_all
  unfold addLocation
  rw [h1, h2, h3]
  by_cases hl : c.loc = true
  · rw [if_neg (by simp [hl])]
    have := key c1 g rfl rfl h4 (fun r => ⟨rfl, rfl, by rw [(hg r).1]; simp [location, hl], (hg r).2.2.2.1, (hg r).2.2.2.2⟩)
    have hL : HasLocation c := Or.inl hl
    simp only [hL, and_true]
    exact this
  · have hl' : c.loc = false := by simpa using hl
    rw [if_pos (by simp [hl'])]
    by_cases hp : c.petal = true ∧ c.device = true
    · rw [if_neg (by simp [hp.1, hp.2])]
      have := key { c1 with loc := true } (fun r => { g r with loc := (g r).petal * 1000 + (g r).device }) rfl rfl h4
        (fun r => ⟨rfl, rfl, by dsimp only; rw [(hg r).2.1, (hg r).2.2.1]; simp [location, hl'], (hg r).2.2.2.1, (hg r).2.2.2.2⟩)
      have hL : HasLocation c := Or.inr hp
      simp only [hL, and_true]
      rw [List.map_map]
      exact this
    · have hL : ¬ HasLocation c := by
        rintro (h | h)
        · exact hl h
        · exact hp h
      rw [if_pos, if_neg (fun h => hL h.2)]
      · rfl
      · rcases hb1 : c.petal <;> rcases hb2 : c.device <;> simp_all

open Classical in
theorem expected_run (metrology : Columns × List (ExpRow δ)) (c : Columns) (rows : List (ExpRow δ)) :
    (getExpected metrology (some (c, rows)) >>= usable) =
      if HasPlace c ∧ HasLocation c then (fibers c rows).mapM (seen c) else .error .keyError := by
  have hid : rows.map (fun r => r) = rows := List.map_id' rows
  unfold getExpected
  dsimp only
  unfold renameExp
  by_cases hx : c.x = true
  · have e1 : (!c.x && c.xexp) = false := by simp [hx]
    rw [e1]
    have e2 : addXY c rows = .ok (c, rows) := by unfold addXY; rw [if_neg (by simp [hx])]
    have := tail_run c c rows (fun r => r) ⟨rfl, rfl, rfl, rfl⟩ (fun r => ⟨rfl, rfl, rfl, rfl, rfl⟩)
      (fun _ _ r => by simp [place, hx])
    rw [hid] at this
    have hP : HasPlace c ↔ (c.x = true ∧ c.y = true) := by
      unfold HasPlace
      simp [hx]
    simp only [hP]
    rw [← this]
    simp only [Bool.false_eq_true, if_false]
    show ((addXY c rows >>= fun t => addLocation t.1 t.2 >>= fun t => _) >>= usable) = _
    rw [e2]
    rfl
  · have hx' : c.x = false := by simpa using hx
    by_cases hxe : c.xexp = true
    · have e1 : (!c.x && c.xexp) = true := by simp [hx', hxe]
      rw [if_pos e1]
      by_cases hy : c.yexp = true ∧ c.y = false
      · have hP : HasPlace c := Or.inr (Or.inl ⟨hx', hxe, hy.1, hy.2⟩)
        rw [if_neg (by simp [hy.1, hy.2])]
        have := tail_run c { c with x := true, y := true, xexp := false, yexp := false } rows (fun r => { r with x := r.xexp, y := r.yexp })
          ⟨rfl, rfl, rfl, rfl⟩ (fun r => ⟨rfl, rfl, rfl, rfl, rfl⟩) (fun _ _ r => by simp [place, hx', hxe])
        simp only [true_and] at this
        simp only [hP, true_and]
        rw [← this]
        rfl
      · have hP : ¬ HasPlace c := by
          unfold HasPlace
          rcases hb1 : c.yexp <;> rcases hb2 : c.y <;> simp_all
        rw [if_pos, if_neg (fun h => hP h.1)]
        · rfl
        · rcases hb1 : c.yexp <;> rcases hb2 : c.y <;> simp_all
    · have hxe' : c.xexp = false := by simpa using hxe
      have e1 : (!c.x && c.xexp) = false := by simp [hxe']
      rw [e1]
      simp only [Bool.false_eq_true, if_false]
      by_cases hq : c.q = true
      · by_cases hs : c.s = true
        · have hP : HasPlace c := Or.inr (Or.inr ⟨hx', hxe', hq, hs⟩)
          have e2 : addXY c rows = .ok ({ c with x := true, y := true }, rows.map fromQS) := by
            unfold addXY; rw [if_pos (by simp [hx']), if_pos hq, if_neg (by simp [hs])]
          have := tail_run c { c with x := true, y := true } rows fromQS ⟨rfl, rfl, rfl, rfl⟩
            (fun r => ⟨(qs r c hx' hxe').2.2.1, (qs r c hx' hxe').2.2.2.1, (qs r c hx' hxe').2.2.2.2.1, (qs r c hx' hxe').2.2.2.2.2.1,
              (qs r c hx' hxe').2.2.2.2.2.2⟩)
            (fun _ _ r => ⟨(qs r c hx' hxe').1, (qs r c hx' hxe').2.1⟩)
          simp only [true_and] at this
          simp only [hP, true_and]
          rw [← this]
          show ((addXY c rows >>= fun t => addLocation t.1 t.2 >>= fun t => _) >>= usable) = _
          rw [e2]
          rfl
        · have hP : ¬ HasPlace c := by
            unfold HasPlace
            simp_all
          have e2 : addXY c rows = .error .keyError := by
            unfold addXY; rw [if_pos (by simp [hx']), if_pos hq, if_pos (by simpa using hs)]
          rw [if_neg (fun h => hP h.1)]
          show ((addXY c rows >>= fun t => addLocation t.1 t.2 >>= fun t => _) >>= usable) = _
          rw [e2]
          rfl
      · have hP : ¬ HasPlace c := by
          unfold HasPlace
          simp_all
        have e2 : addXY c rows = .ok (c, rows) := by
          unfold addXY; rw [if_pos (by simp [hx']), if_neg hq]
        have := tail_run c c rows (fun r => r) ⟨rfl, rfl, rfl, rfl⟩ (fun r => ⟨rfl, rfl, rfl, rfl, rfl⟩)
          (fun h _ r => absurd h hx)
        rw [hid] at this
        rw [if_neg (fun h => hP h.1)]
        rw [if_neg (fun h => hx h.1.1)] at this
        rw [← this]
        show ((addXY c rows >>= fun t => addLocation t.1 t.2 >>= fun t => _) >>= usable) = _
        rw [e2]
        rfl

theorem mapM_error {α β : Type} (f : α → Except PyErr β) (e : PyErr) (hf : ∀ a, f a = .error e ∨ ∃ b, f a = .ok b) (l : List α) :
    l.mapM f = .error e ∨ ∃ bs, l.mapM f = .ok bs := by
  induction l with
  | nil => right; exact ⟨[], rfl⟩
  | cons a t ih =>
    rw [List.mapM_cons]
    rcases hf a with h | ⟨b, h⟩
    · left; rw [h]; rfl
    · rw [h]
      rcases ih with h' | ⟨bs, h'⟩
      · left; rw [h']; rfl
      · right; rw [h']; exact ⟨_, rfl⟩

/-- **C103.** The expected positions of a table: X_FP and Y_FP, else X_FP_EXP and Y_FP_EXP, else the place of EXP_Q_0 and EXP_S_0, which is (-99999, -99999) if one of them is not a number; the location is LOCATION, else PETAL_LOC * 1000 + DEVICE_LOC; rows with a PINHOLE_ID other than 0 are left out. A missing column ends in a KeyError; a coordinate of X_FP or X_FP_EXP that is not a number, of a row that is not left out, in a ValueError. -/
theorem C103_expected (metrology : Columns × List (ExpRow δ)) (c : Columns) (rows : List (ExpRow δ)) :
    (¬ (HasPlace c ∧ HasLocation c) → (getExpected metrology (some (c, rows)) >>= usable) = .error .keyError) ∧
    (HasPlace c ∧ HasLocation c → (∃ r ∈ fibers c rows, (place c r).1 = none ∨ (place c r).2 = none) →
      (getExpected metrology (some (c, rows)) >>= usable) = .error .valueError) ∧
    (HasPlace c ∧ HasLocation c → (∀ r ∈ fibers c rows, (place c r).1 ≠ none ∧ (place c r).2 ≠ none) →
      ∃ e, (getExpected metrology (some (c, rows)) >>= usable) = .ok e) ∧
    ∀ e, (getExpected metrology (some (c, rows)) >>= usable) = .ok e →
      List.Forall₂ (fun (r : ExpRow δ) (x : Expected δ) => x.loc = location c r ∧ place c r = (some x.xy.1, some x.xy.2) ∧ x.info = r.info)
        (fibers c rows) e := by
  rw [expected_run]
  have hseen : ∀ r : ExpRow δ, seen c r = .error .valueError ∨ ∃ b, seen c r = .ok b := by
    intro r
    unfold seen
    rcases place c r with ⟨_ | x, _ | y⟩
    · exact Or.inl rfl
    · exact Or.inl rfl
    · exact Or.inl rfl
    · exact Or.inr ⟨_, rfl⟩
  refine ⟨fun h => if_neg h, ?_, ?_, ?_⟩
  · rintro h ⟨r, hr, hn⟩
    rw [if_pos h]
    rcases mapM_error (seen c) .valueError hseen (fibers c rows) with h' | ⟨bs, h'⟩
    · exact h'
    · exfalso
      rw [mapM_iff] at h'
      obtain ⟨b, _, hb⟩ : ∃ b ∈ bs, seen c r = .ok b := by
        have : ∀ (l : List (ExpRow δ)) (out : List (Expected δ)), List.Forall₂ (fun a b => seen c a = .ok b) l out → r ∈ l →
            ∃ b ∈ out, seen c r = .ok b := by
          intro l out hf hm
          induction hf with
          | nil => cases hm
          | cons h1 _ ih =>
            rcases List.mem_cons.1 hm with rfl | hm
            · exact ⟨_, List.mem_cons_self, h1⟩
            · obtain ⟨b, hb, hb'⟩ := ih hm
              exact ⟨b, List.mem_cons_of_mem _ hb, hb'⟩
        exact this _ _ h' hr
      rw [seen_ok] at hb
      rw [hb.2.1] at hn
      simp at hn
  · intro h hall
    rw [if_pos h]
    rcases mapM_error (seen c) .valueError hseen (fibers c rows) with h' | ⟨bs, h'⟩
    · exfalso
      have hex : ∀ r ∈ fibers c rows, ∃ b, seen c r = .ok b := by
        intro r hr
        obtain ⟨a1, a2⟩ := hall r hr
        unfold seen
        rcases hp : place c r with ⟨_ | x, _ | y⟩
        · rw [hp] at a1; exact absurd rfl a1
        · rw [hp] at a1; exact absurd rfl a1
        · rw [hp] at a2; exact absurd rfl a2
        · exact ⟨_, rfl⟩
      have : ∀ l : List (ExpRow δ), (∀ r ∈ l, ∃ b, seen c r = .ok b) → ∃ bs, l.mapM (seen c) = .ok bs := by
        intro l hl
        induction l with
        | nil => exact ⟨[], rfl⟩
        | cons a t ih =>
          obtain ⟨b, hb⟩ := hl a List.mem_cons_self
          obtain ⟨bs, hbs⟩ := ih fun r hr => hl r (List.mem_cons_of_mem _ hr)
          exact ⟨b :: bs, by rw [List.mapM_cons, hb, hbs]; rfl⟩
      obtain ⟨bs, hbs⟩ := this _ hex
      rw [hbs] at h'
      cases h'
    · exact ⟨bs, h'⟩
  · intro e he
    split_ifs at he with h
    rw [mapM_iff] at he
    refine he.imp ?_
    intro r x hx
    exact (seen_ok c r x).1 hx

example : HasPlace ⟨false, false, true, true, false, false, false, true, true, false⟩ ∧
    HasLocation ⟨false, false, true, true, false, false, false, true, true, false⟩ := by
  simp [HasPlace, HasLocation]

/-- **C103.** Without `--expected-positions` the rows of the metrology that are not pinholes are used. -/
theorem C103_default (metrology : Columns × List (ExpRow δ)) (hl : metrology.1.loc = true) :
    getExpected metrology none = .ok (metrology.1, fibers metrology.1 metrology.2) := by
  unfold getExpected addLocation
  have : dropPinholes metrology.1 metrology.2 = fibers metrology.1 metrology.2 := by
    unfold dropPinholes fibers
    cases metrology.1.pinhole <;> simp
  have e : (!metrology.1.loc) = false := by simp [hl]
  rw [← this]
  show ((if !metrology.1.loc then _ else (Except.ok (metrology.1, metrology.2) : Except PyErr _)) >>= fun t => (Except.ok (t.1, dropPinholes t.1 t.2) : Except PyErr _)) = _
  rw [e]
  rfl

/-! ## Matching -/

theorem findSome_unique {α β : Type} (l : List α) (p : α → Prop) [DecidablePred p] (g : α → Option β) (k : α) (hk : k ∈ l) (hp : p k)
    (hu : ∀ k', p k' → k' = k) : (l.findSome? fun a => if p a then g a else none) = g k := by
  induction l with
  | nil => cases hk
  | cons a t ih =>
    rw [List.findSome?_cons]
    by_cases ha : p a
    · obtain rfl := hu a ha
      rw [if_pos ha]
      cases hg : g a with
      | some b => rfl
      | none =>
        dsimp only
        rw [List.findSome?_eq_none_iff]
        intro x _
        by_cases hx : p x
        · rw [if_pos hx, hu x hx, hg]
        · rw [if_neg hx]
    · rw [if_neg ha]
      dsimp only
      apply ih
      rcases List.mem_cons.1 hk with rfl | h
      · exact absurd hp ha
      · exact h

theorem mem_unmatched (spots : Fin n → Spot δ) (i : Fin n) : i ∈ unmatched spots ↔ (spots i).loc = -1 := by
  simp [unmatched]

theorem nodup_unmatched (spots : Fin n → Spot δ) : (unmatched spots).Nodup := (List.nodup_finRange n).filter _

/-- **C103.** Matching to the expected positions, if there are any. Every spot that was identified before keeps all its columns. A spot that was not gets the columns of at most one expected position: the nearest to it, closer than the maximal distance, and no two spots get the same. A spot that gets none has no expected position closer than the maximal distance, or the one nearest to it went to a spot that is not farther from it. -/
theorem C103_match {argsort : List (WithTop ℝ) → List ℕ} (hs : Sorts argsort) {nearest : 0 < m → ℝ × ℝ → Fin m} (e : Fin m → Expected δ)
    (hm : 0 < m) (hn : Nearest (nearest hm) fun j => (e j).xy) (maxd : ℝ) (spots : Fin n → Spot δ) :
    ∃ p : Fin n → Option (Fin m),
      (∀ i, p i = none → matchExpected argsort nearest maxd spots e i = spots i) ∧
      (∀ i j, p i = some j → (spots i).loc = -1 ∧
        matchExpected argsort nearest maxd spots e i = ⟨(e j).loc, (spots i).xy, (e j).xy, (spots i).metro, (e j).info⟩ ∧
        dist2 (spots i).xy (e j).xy < maxd ∧ ∀ k, dist2 (spots i).xy (e j).xy ≤ dist2 (spots i).xy (e k).xy) ∧
      (∀ i i' j, p i = some j → p i' = some j → i = i') ∧
      (∀ i, p i = none → (spots i).loc = -1 → (∀ k, maxd ≤ dist2 (spots i).xy (e k).xy) ∨
        ∃ i0 j, p i0 = some j ∧ i0 ≠ i ∧ (∀ k, dist2 (spots i).xy (e j).xy ≤ dist2 (spots i).xy (e k).xy) ∧
          dist2 (spots i0).xy (e j).xy ≤ dist2 (spots i).xy (e j).xy) := by
  obtain ⟨sel, hsel⟩ : ∃ s, s = unmatched spots := ⟨_, rfl⟩
  have hnd : sel.Nodup := hsel ▸ nodup_unmatched spots
  have hmem : ∀ i, i ∈ sel ↔ (spots i).loc = -1 := fun i => hsel ▸ mem_unmatched spots i
  obtain ⟨r, hr⟩ : ∃ r, r = matchSame argsort nearest (fun k : Fin sel.length => (spots (sel.get k)).xy) (fun j => (e j).xy) true := ⟨_, rfl⟩
  have hspec := C30_match_same hs nearest (fun k : Fin sel.length => (spots (sel.get k)).xy) (fun j => (e j).xy) hm hn
  rw [← hr] at hspec
  obtain ⟨a1, a2, a3, a4, a5⟩ := hspec
  -- the partner of an unmatched spot
  obtain ⟨g, hg⟩ : ∃ g : Fin sel.length → Option (Fin m), g = fun k =>
      match r.1 k with
      | some j => if h : j < m then (if r.2 k < maxd then some ⟨j, h⟩ else none) else none
      | none => none := ⟨_, rfl⟩
  have hp1 : ∀ k, partner argsort nearest maxd spots e (sel.get k) = g k := by
    intro k
    have := findSome_unique (List.finRange sel.length) (fun k' => sel.get k' = sel.get k) g k (List.mem_finRange k) rfl
      (fun k' h => (List.Nodup.get_inj_iff hnd).1 h)
    rw [← this]
    unfold partner
    dsimp only
    subst hsel hg hr
    rfl
  have hp0 : ∀ i, (spots i).loc ≠ -1 → partner argsort nearest maxd spots e i = none := by
    intro i hi
    unfold partner
    dsimp only
    rw [← hsel, List.findSome?_eq_none_iff]
    intro k _
    rw [if_neg]
    intro h
    apply hi
    rw [← hmem, ← h]
    exact List.get_mem sel k
  have hgs : ∀ k j, g k = some j ↔ r.1 k = some (j : ℕ) ∧ r.2 k < (maxd : WithTop ℝ) := by
    intro k j
    rw [hg]
    dsimp only
    cases hk : r.1 k with
    | none => simp
    | some v =>
      dsimp only
      obtain ⟨hv, _⟩ := a1 k v hk
      rw [dif_pos hv]
      constructor
      · intro h
        split_ifs at h with hd
        obtain rfl := Option.some.inj h
        exact ⟨rfl, hd⟩
      · rintro ⟨h, hd⟩
        rw [if_pos hd]
        congr 1
        exact Fin.ext (Option.some.inj h)
  have hdist : ∀ k (j : Fin m), r.1 k = some (j : ℕ) → (r.2 k < (maxd : WithTop ℝ) ↔ dist2 (spots (sel.get k)).xy (e j).xy < maxd) := by
    intro k j hk
    obtain ⟨_, h⟩ := a5 k j hk
    rw [h, WithTop.coe_lt_coe]
  have hget : ∀ i, (spots i).loc = -1 → ∃ k, sel.get k = i := by
    intro i hi
    exact List.mem_iff_get.1 ((hmem i).2 hi)
  refine ⟨partner argsort nearest maxd spots e, ?_, ?_, ?_, ?_⟩
  · intro i hi
    unfold matchExpected
    rw [hi]
  · intro i j hij
    have hloc : (spots i).loc = -1 := by
      by_contra hc
      rw [hp0 i hc] at hij
      cases hij
    obtain ⟨k, rfl⟩ := hget i hloc
    have hij' := hij
    rw [hp1, hgs] at hij'
    refine ⟨hloc, ?_, (hdist k j hij'.1).1 hij'.2, (a1 k j hij'.1).2⟩
    unfold matchExpected
    rw [hij]
  · intro i i' j h1 h2
    have l1 : (spots i).loc = -1 := by
      by_contra hc
      rw [hp0 i hc] at h1
      cases h1
    have l2 : (spots i').loc = -1 := by
      by_contra hc
      rw [hp0 i' hc] at h2
      cases h2
    obtain ⟨k, rfl⟩ := hget i l1
    obtain ⟨k', rfl⟩ := hget i' l2
    rw [hp1, hgs] at h1 h2
    rw [a2 k k' j h1.1 h2.1]
  · intro i hi hloc
    obtain ⟨k, rfl⟩ := hget i hloc
    have hi' := hi
    rw [hp1] at hi'
    cases hk : r.1 k with
    | some v =>
      obtain ⟨hv, hmin⟩ := a1 k v hk
      left
      intro k'
      refine le_trans ?_ (hmin k')
      by_contra hc
      rw [not_le] at hc
      have := (hgs k ⟨v, hv⟩).2 ⟨hk, (hdist k ⟨v, hv⟩ hk).2 hc⟩
      rw [hi'] at this
      cases this
    | none =>
      obtain ⟨k0, j, hj, h0, hne, hmin, hle⟩ := a3 k hk
      by_cases hd : dist2 (spots (sel.get k)).xy (e ⟨j, hj⟩).xy < maxd
      · right
        refine ⟨sel.get k0, ⟨j, hj⟩, ?_, ?_, hmin, hle⟩
        · rw [hp1, hgs]
          exact ⟨h0, (hdist k0 ⟨j, hj⟩ h0).2 (lt_of_le_of_lt hle hd)⟩
        · intro h
          exact hne ((List.Nodup.get_inj_iff hnd).1 h)
      · left
        intro k'
        rw [not_lt] at hd
        exact hd.trans (hmin k')

noncomputable example : ∃ nearest : 0 < 2 → ℝ × ℝ → Fin 2, Nearest (nearest (by norm_num)) fun j : Fin 2 => ((j : ℝ), (0 : ℝ)) := by
  classical
  refine ⟨fun _ p => if dist2 p (0, 0) ≤ dist2 p (1, 0) then 0 else 1, fun p k => ?_⟩
  dsimp only
  fin_cases k <;> split_ifs with h <;> simp at h ⊢ <;> first | exact h | exact h.le

/-- **C103.** Without expected positions no spot changes. -/
theorem C103_match_none (argsort : List (WithTop ℝ) → List ℕ) (nearest : 0 < 0 → ℝ × ℝ → Fin 0) (e : Fin 0 → Expected δ) (maxd : ℝ)
    (spots : Fin n → Spot δ) (i : Fin n) : matchExpected argsort nearest maxd spots e i = spots i := by
  unfold matchExpected
  cases partner argsort nearest maxd spots e i with
  | none => rfl
  | some j => exact j.elim0

/-! ## The columns with --use-spotmatch -/

theorem loc2i_iff (locs : Fin n → ℤ) (l : ℤ) (i : Fin n) : loc2i locs l = some i ↔ locs i = l ∧ ∀ i', i < i' → locs i' ≠ l := by
  unfold loc2i
  obtain ⟨L, hL⟩ : ∃ L, L = (List.finRange n).filter fun i => decide (locs i = l) := ⟨_, rfl⟩
  have hmem : ∀ i, i ∈ L ↔ locs i = l := by intro i; rw [hL]; simp
  have hp : L.Pairwise (· < ·) := hL ▸ (List.pairwise_lt_finRange n).filter _
  rw [← hL]
  rcases List.eq_nil_or_concat L with h | ⟨t, b, h⟩
  · rw [h]
    simp only [List.getLast?_nil, reduceCtorEq, false_iff, not_and]
    intro hi
    rw [h] at hmem
    exact absurd ((hmem i).2 hi) (by simp)
  · rw [List.concat_eq_append] at h
    rw [h, List.getLast?_concat, Option.some.injEq]
    rw [h, List.pairwise_append] at hp
    rw [h] at hmem
    have hb : locs b = l := (hmem b).1 (by simp)
    constructor
    · rintro rfl
      refine ⟨hb, fun i' hlt hi' => ?_⟩
      rcases List.mem_append.1 ((hmem i').2 hi') with h' | h'
      · exact absurd (hp.2.2 i' h' b (by simp)) (not_lt.2 hlt.le)
      · rw [List.mem_singleton] at h'
        exact absurd hlt (by rw [h']; exact lt_irrefl _)
    · rintro ⟨hi, hlast⟩
      rcases List.mem_append.1 ((hmem i).2 hi) with h' | h'
      · exact absurd hb (hlast b (hp.2.2 i h' b (by simp)))
      · rw [List.mem_singleton] at h'
        exact h'.symm

/-- **C103.** With `--use-spotmatch` a position of a table goes to the last spot with its location; the other spots of this location keep the zeros. Of several rows of the table with the same location the last is taken. -/
theorem C103_join (locs : Fin n → ℤ) (table : List (ℤ × (ℝ × ℝ))) (column : Fin n → ℝ × ℝ) (i : Fin n) :
    ((∃ i', i < i' ∧ locs i' = locs i) → joinLast locs table column i = column i) ∧
    ((∀ t ∈ table, t.1 ≠ locs i) → joinLast locs table column i = column i) ∧
    ∀ before v after, table = before ++ (locs i, v) :: after → (∀ t ∈ after, t.1 ≠ locs i) → (∀ i', i < i' → locs i' ≠ locs i) →
      joinLast locs table column i = v := by
  have hstep : ∀ (t : ℤ × (ℝ × ℝ)) (c : Fin n → ℝ × ℝ), (loc2i locs t.1 ≠ some i) →
      (match loc2i locs t.1 with
        | some i => Function.update c i t.2
        | none => c) i = c i := by
    intro t c h
    cases hl : loc2i locs t.1 with
    | none => rfl
    | some k =>
      dsimp only
      rw [Function.update_of_ne]
      rintro rfl
      exact h hl
  have hkeep : ∀ (table : List (ℤ × (ℝ × ℝ))) (column : Fin n → ℝ × ℝ), (∀ t ∈ table, loc2i locs t.1 ≠ some i) →
      joinLast locs table column i = column i := by
    intro table
    induction table with
    | nil => intro column _; rfl
    | cons t ts ih =>
      intro column h
      unfold joinLast at ih ⊢
      rw [List.foldl_cons, ih _ fun x hx => h x (List.mem_cons_of_mem _ hx)]
      exact hstep t column (h t List.mem_cons_self)
  refine ⟨?_, ?_, ?_⟩
  · rintro ⟨i', hlt, he⟩
    apply hkeep
    intro t _ hl
    obtain ⟨h1, h2⟩ := (loc2i_iff locs t.1 i).1 hl
    exact h2 i' hlt (he.trans h1)
  · intro h
    apply hkeep
    intro t ht hl
    exact h t ht ((loc2i_iff locs t.1 i).1 hl).1.symm
  · intro before v after ht hafter hlast
    rw [ht]
    have hi : loc2i locs (locs i) = some i := (loc2i_iff locs (locs i) i).2 ⟨rfl, hlast⟩
    have hcomp : joinLast locs (before ++ (locs i, v) :: after) column =
        joinLast locs after (Function.update (joinLast locs before column) i v) := by
      unfold joinLast
      rw [List.foldl_append, List.foldl_cons]
      dsimp only
      rw [hi]
    rw [hcomp, hkeep, Function.update_self]
    intro t ht' hl
    exact hafter t ht' ((loc2i_iff locs t.1 i).1 hl).1.symm

example : ∀ i', (1 : Fin 2) < i' → (![7011, 7011] : Fin 2 → ℤ) i' ≠ (![7011, 7011] : Fin 2 → ℤ) 1 := by decide

/-! ## The correction for turbulence, the metrology and the sky -/

theorem mem_corrected (spots : Fin n → Spot δ) (i : Fin n) :
    i ∈ corrected spots ↔ 0 ≤ (spots i).loc ∧ (spots i).expected.1 ≠ 0 ∧ (spots i).expected.2 ≠ 0 := by
  unfold corrected
  simp

theorem update_fold {α : Type} (g : α → ℝ × ℝ → α) (l : List (Fin n)) (new : List (ℝ × ℝ)) (hnd : l.Nodup) (hlen : new.length = l.length)
    (s : Fin n → α) :
    (∀ i, i ∉ l → (l.zip new).foldl (fun s p => Function.update s p.1 (g (s p.1) p.2)) s i = s i) ∧
    ∀ (k : ℕ) i v, l[k]? = some i → new[k]? = some v → (l.zip new).foldl (fun s p => Function.update s p.1 (g (s p.1) p.2)) s i = g (s i) v := by
  induction l generalizing new s with
  | nil => exact ⟨fun _ _ => rfl, fun k i v h => by simp at h⟩
  | cons a t ih =>
    cases new with
    | nil => simp at hlen
    | cons b bs =>
      rw [List.nodup_cons] at hnd
      obtain ⟨i1, i2⟩ := ih bs hnd.2 (by simpa using hlen) (Function.update s a (g (s a) b))
      rw [List.zip_cons_cons, List.foldl_cons]
      refine ⟨?_, ?_⟩
      · intro i hi
        rw [List.mem_cons, not_or] at hi
        rw [i1 i hi.2, Function.update_of_ne hi.1]
      · intro k i v hk hv
        cases k with
        | zero =>
          simp only [List.getElem?_cons_zero, Option.some.injEq] at hk hv
          subst hk hv
          rw [i1 a hnd.1, Function.update_self]
        | succ k =>
          simp only [List.getElem?_cons_succ] at hk hv
          rw [i2 k i v hk hv, Function.update_of_ne]
          rintro rfl
          exact hnd.1 (List.mem_of_getElem? hk)

/-- **C103.** The correction for turbulence replaces X_FP and Y_FP of the identified spots whose expected coordinates are both other than zero, in their order, and nothing else. -/
theorem C103_turbulence (corr : List ((ℝ × ℝ) × (ℝ × ℝ)) → Except PyErr (List (ℝ × ℝ))) (spots out : Fin n → Spot δ)
    (h : turbulence corr spots = .ok out) :
    ∃ sel : List (Fin n), sel.Pairwise (· < ·) ∧
      (∀ i, i ∈ sel ↔ 0 ≤ (spots i).loc ∧ (spots i).expected.1 ≠ 0 ∧ (spots i).expected.2 ≠ 0) ∧
      (∀ i, i ∉ sel → out i = spots i) ∧
      ∃ new, corr (sel.map fun i => ((spots i).xy, (spots i).expected)) = .ok new ∧ new.length = sel.length ∧
        ∀ (k : ℕ) i v, sel[k]? = some i → new[k]? = some v →
          out i = ⟨(spots i).loc, v, (spots i).expected, (spots i).metro, (spots i).info⟩ := by
  unfold turbulence at h
  dsimp only at h
  rw [bind_iff] at h
  obtain ⟨new, hnew, h⟩ := h
  by_cases hlen : new.length = (corrected spots).length
  · rw [if_neg (not_not.2 hlen)] at h
    have h := (Except.ok.inj h).symm
    have hp : (corrected spots).Pairwise (· < ·) := (List.pairwise_lt_finRange n).filter _
    obtain ⟨i1, i2⟩ := update_fold (fun (s : Spot δ) v => { s with xy := v }) (corrected spots) new
      (hp.imp fun h => ne_of_lt h) hlen spots
    refine ⟨corrected spots, hp, mem_corrected spots, ?_, new, hnew, hlen, ?_⟩
    · intro i hi
      rw [h]; exact i1 i hi
    · intro k i v hk hv
      rw [h]; exact i2 k i v hk hv
  · rw [if_pos hlen] at h
    cases h

/-- **C103.** X_FP_EXP and Y_FP_EXP of the output: each is the metrology of the spot if that is not zero, otherwise the expected coordinate; the other columns are as before. The correction is made only with `--expected-positions`. -/
theorem C103_finish (given turb : Bool) (corr : List ((ℝ × ℝ) × (ℝ × ℝ)) → Except PyErr (List (ℝ × ℝ))) (spots out : Fin n → Spot δ)
    (h : finish given turb corr spots = .ok out) :
    (∀ i, (out i).loc = (spots i).loc ∧ (out i).metro = (spots i).metro ∧ (out i).info = (spots i).info ∧
      ((spots i).metro.1 ≠ 0 → (out i).expected.1 = (spots i).metro.1) ∧ ((spots i).metro.1 = 0 → (out i).expected.1 = (spots i).expected.1) ∧
      ((spots i).metro.2 ≠ 0 → (out i).expected.2 = (spots i).metro.2) ∧ ((spots i).metro.2 = 0 → (out i).expected.2 = (spots i).expected.2)) ∧
    ((given && turb) = false → ∀ i, (out i).xy = (spots i).xy) ∧
    ((given && turb) = true → ∃ mid, turbulence corr spots = .ok mid ∧ ∀ i, (out i).xy = (mid i).xy) := by
  have hov : ∀ (s : Spot δ), ((s.metro.1 ≠ 0 → (override s).expected.1 = s.metro.1) ∧ (s.metro.1 = 0 → (override s).expected.1 = s.expected.1) ∧
      (s.metro.2 ≠ 0 → (override s).expected.2 = s.metro.2) ∧ (s.metro.2 = 0 → (override s).expected.2 = s.expected.2)) := by
    intro s
    unfold override
    refine ⟨fun h => ?_, fun h => ?_, fun h => ?_, fun h => ?_⟩ <;> simp [h]
  unfold finish at h
  by_cases hb : (given && turb) = true
  · rw [if_pos hb, map_ok] at h
    obtain ⟨mid, hmid, rfl⟩ := h
    refine ⟨fun i => ?_, fun h => absurd (h.symm.trans hb) Bool.false_ne_true, fun _ => ⟨mid, hmid, fun i => rfl⟩⟩
    obtain ⟨sel, _, _, hno, new, _, hlen, hyes⟩ := C103_turbulence corr spots mid hmid
    have hsame : (mid i).loc = (spots i).loc ∧ (mid i).expected = (spots i).expected ∧ (mid i).metro = (spots i).metro ∧ (mid i).info = (spots i).info := by
      by_cases hi : i ∈ sel
      · obtain ⟨k, hk⟩ := List.mem_iff_getElem?.1 hi
        have hlt : k < new.length := by
          rw [hlen]
          exact (List.getElem?_eq_some_iff.1 hk).1
        rw [hyes k i new[k] hk (List.getElem?_eq_getElem hlt)]
        exact ⟨rfl, rfl, rfl, rfl⟩
      · rw [hno i hi]
        exact ⟨rfl, rfl, rfl, rfl⟩
    obtain ⟨s1, s2, s3, s4⟩ := hsame
    have := hov (mid i)
    rw [s2, s3] at this
    exact ⟨s1, s3, s4, this⟩
  · rw [if_neg hb] at h
    have h := (Except.ok.inj h).symm
    subst h
    refine ⟨fun i => ⟨rfl, rfl, rfl, hov (spots i)⟩, fun _ i => rfl, fun h => absurd h hb⟩

/-- **C103** (finding). With `--use-spotmatch`, X_FP_EXP and Y_FP_EXP of the output are not the expected position but the metrology of the positioner, whatever positions are expected: for the last spot of every location of the metrology whose coordinates are not zero. Of the pinholes of a fiducial the last is taken, not the centre. -/
theorem C103_spotmatch_overwrites (given turb : Bool) (corr : List ((ℝ × ℝ) × (ℝ × ℝ)) → Except PyErr (List (ℝ × ℝ))) (tx : ℝ × ℝ → ℝ × ℝ)
    (spots : Fin n → ℤ × (ℝ × ℝ) × δ) (expected before after : List (ℤ × (ℝ × ℝ))) (v : ℝ × ℝ) (i : Fin n) (h1 : v.1 ≠ 0) (h2 : v.2 ≠ 0)
    (hafter : ∀ t ∈ after, t.1 ≠ (spots i).1) (hlast : ∀ i', i < i' → (spots i').1 ≠ (spots i).1) (out : Fin n → Spot δ)
    (h : finish given turb corr (spotmatchColumns tx spots expected (before ++ ((spots i).1, v) :: after)) = .ok out) :
    (out i).expected = v := by
  obtain ⟨hall, _⟩ := C103_finish given turb corr _ out h
  obtain ⟨_, _, _, e1, _, e2, _⟩ := hall i
  have hm : (spotmatchColumns tx spots expected (before ++ ((spots i).1, v) :: after) i).metro = v :=
    (C103_join (fun i => (spots i).1) (before ++ ((spots i).1, v) :: after) (fun _ => (0, 0)) i).2.2 before v after rfl hafter hlast
  rw [hm] at e1 e2
  exact Prod.ext (e1 h1) (e2 h2)

/-- **C103.** With `--use-spotmatch` a spot whose location is not in the table of expected positions (or which is not the last of its location) is
expected at zero, has zero metrology if it is not in that table either, and is not corrected for turbulence. -/
theorem C103_unexpected (tx : ℝ × ℝ → ℝ × ℝ) (spots : Fin n → ℤ × (ℝ × ℝ) × δ) (expected metrology : List (ℤ × (ℝ × ℝ))) (i : Fin n) :
    ((∀ t ∈ expected, t.1 ≠ (spots i).1) ∨ (∃ i', i < i' ∧ (spots i').1 = (spots i).1) →
      (spotmatchColumns tx spots expected metrology i).expected = (0, 0) ∧ i ∉ corrected (spotmatchColumns tx spots expected metrology)) ∧
    ((∀ t ∈ metrology, t.1 ≠ (spots i).1) → (spotmatchColumns tx spots expected metrology i).metro = (0, 0)) := by
  have h := C103_join (fun i => (spots i).1) expected (fun _ => (0, 0)) i
  refine ⟨fun hc => ?_, (C103_join (fun i => (spots i).1) metrology (fun _ => (0, 0)) i).2.1⟩
  have e : (spotmatchColumns tx spots expected metrology i).expected = (0, 0) := hc.elim h.2.1 h.1
  refine ⟨e, fun hm => ?_⟩
  unfold corrected at hm
  have := of_decide_eq_true (List.mem_filter.1 hm).2
  rw [e] at this
  exact this.2.1 rfl

/-- **C103.** RA and DEC of the output are those of the position of the spot, and zero if a coordinate is zero. -/
theorem C103_radec (fp2radec : ℝ × ℝ → ℝ × ℝ) (s : Spot δ) :
    (s.xy.1 ≠ 0 → s.xy.2 ≠ 0 → radec fp2radec s = fp2radec s.xy) ∧ (s.xy.1 = 0 ∨ s.xy.2 = 0 → radec fp2radec s = (0, 0)) := by
  unfold radec
  refine ⟨fun h1 h2 => if_pos ⟨h1, h2⟩, ?_⟩
  rintro (h | h) <;> exact if_neg (by simp [h])

/-- **C103.** The whole of it without `--use-spotmatch`: an identified spot with nonzero metrology has the metrology as expected position; every other column of an identified spot is as before, apart from the correction for turbulence; a spot that was not identified has the location of the expected position it was matched to. -/
theorem C103_normal {argsort : List (WithTop ℝ) → List ℕ} (hs : Sorts argsort)
    {nearest : (e : List (Expected δ)) → 0 < e.length → ℝ × ℝ → Fin e.length}
    (hn : ∀ e (h : 0 < e.length), Nearest (nearest e h) fun j => (e.get j).xy) (maxd : ℝ) (metrology : Columns × List (ExpRow δ))
    (table : Option (Columns × List (ExpRow δ))) (turb : Bool) (corr : List ((ℝ × ℝ) × (ℝ × ℝ)) → Except PyErr (List (ℝ × ℝ)))
    (spots out : Fin n → Spot δ) (h : normal argsort nearest maxd metrology table turb corr spots = .ok out) :
    ∃ e, (getExpected metrology table >>= usable) = .ok e ∧
      (∀ i, (spots i).loc ≠ -1 → (out i).loc = (spots i).loc ∧ (out i).info = (spots i).info) ∧
      (∀ i, (spots i).loc = -1 → (out i).loc = -1 ∨ ∃ x ∈ e, (out i).loc = x.loc ∧ (out i).info = x.info ∧
        dist2 (spots i).xy x.xy < maxd ∧ (∀ y ∈ e, dist2 (spots i).xy x.xy ≤ dist2 (spots i).xy y.xy) ∧
        ((spots i).metro = (0, 0) → (out i).expected = x.xy)) ∧
      (∀ i, (spots i).loc ≠ -1 → (spots i).metro.1 ≠ 0 → (spots i).metro.2 ≠ 0 → (out i).expected = (spots i).metro) ∧
      ((table = none ∨ turb = false) → ∀ i, (out i).xy = (spots i).xy) := by
  unfold normal at h
  rw [bind_iff] at h
  obtain ⟨t, ht, h⟩ := h
  rw [bind_iff] at h
  obtain ⟨e, he, h⟩ := h
  obtain ⟨hall, hxy, _⟩ := C103_finish _ _ corr _ out h
  have hmatch : ∃ p : Fin n → Option (Fin e.length),
      (∀ i, p i = none → matchExpected argsort (nearest e) maxd spots e.get i = spots i) ∧
      (∀ i j, p i = some j → (spots i).loc = -1 ∧
        matchExpected argsort (nearest e) maxd spots e.get i = ⟨(e.get j).loc, (spots i).xy, (e.get j).xy, (spots i).metro, (e.get j).info⟩ ∧
        dist2 (spots i).xy (e.get j).xy < maxd ∧ ∀ k, dist2 (spots i).xy (e.get j).xy ≤ dist2 (spots i).xy (e.get k).xy) := by
    rcases Nat.eq_zero_or_pos e.length with h0 | hpos
    · have : e = [] := List.length_eq_zero_iff.1 h0
      subst this
      exact ⟨fun _ => none, fun i _ => C103_match_none argsort _ _ maxd spots i, fun i j h => by cases h⟩
    · obtain ⟨p, q1, q2, _⟩ := C103_match hs e.get hpos (hn e hpos) maxd spots
      exact ⟨p, q1, q2⟩
  obtain ⟨p, q1, q2⟩ := hmatch
  refine ⟨e, ?_, ?_, ?_, ?_, ?_⟩
  · rw [bind_iff]; exact ⟨t, ht, he⟩
  · intro i hi
    have hp : p i = none := by
      cases hp : p i with
      | none => rfl
      | some j => exact absurd (q2 i j hp).1 hi
    obtain ⟨k1, _, k3, _⟩ := hall i
    rw [q1 i hp] at k1 k3
    exact ⟨k1, k3⟩
  · intro i hi
    obtain ⟨k1, _, k3, _, k5, _, k7⟩ := hall i
    cases hp : p i with
    | none =>
      left
      rw [q1 i hp, hi] at k1
      exact k1
    | some j =>
      right
      obtain ⟨_, hm, hd, hmin⟩ := q2 i j hp
      rw [hm] at k1 k3 k5 k7
      refine ⟨e.get j, List.get_mem e j, k1, k3, hd, ?_, ?_⟩
      · intro y hy
        obtain ⟨k, rfl⟩ := List.mem_iff_get.1 hy
        exact hmin k
      · intro hz
        refine Prod.ext (k5 ?_) (k7 ?_)
        · simp [hz]
        · simp [hz]
  · intro i hi hx hy
    have hp : p i = none := by
      cases hp : p i with
      | none => rfl
      | some j => exact absurd (q2 i j hp).1 hi
    obtain ⟨_, _, _, k4, _, k6, _⟩ := hall i
    rw [q1 i hp] at k4 k6
    exact Prod.ext (k4 hx) (k6 hy)
  · intro hno i
    have hb : (table.isSome && turb) = false := by
      rcases hno with rfl | rfl <;> simp
    rw [hxy hb i]
    cases hp : p i with
    | none => rw [q1 i hp]
    | some j => rw [(q2 i j hp).2.1]

/-! ## The metrology of the centres of fiducials -/

open Verif.Model.Spotmatch (Met fidLocations centre isFid)

theorem replaceFirst_spec (loc : ℤ) (new : Met → Met) (hnew : ∀ r, (new r).loc = r.loc) (met : List Met) :
    (∀ l, l ≠ loc → (replaceFirst loc new met).filter (fun r => r.loc = l) = met.filter (fun r => r.loc = l)) ∧
    (replaceFirst loc new met).filter (fun r => r.loc = loc) = ((met.filter (fun r => r.loc = loc)).take 1).map new ∧
    ((replaceFirst loc new met).map (·.loc)).Sublist (met.map (·.loc)) ∧
    ∀ l, l ≠ loc → ∀ P : Met → Bool, (∀ r, P r = true → r.loc ≠ loc) → (replaceFirst loc new met).filter P = met.filter P := by
  have hlast : ∀ P : Met → Bool, (∀ r, P r = true → r.loc ≠ loc) → (replaceFirst loc new met).filter P = met.filter P := by
    intro P hP
    induction met with
    | nil => rfl
    | cons r t ih =>
      unfold replaceFirst
      by_cases h : r.loc = loc
      · rw [if_pos h, List.filter_cons_of_neg, List.filter_cons_of_neg, List.filter_filter]
        · apply List.filter_congr
          intro x _
          cases hx : P x with
          | false => simp
          | true => simpa using hP x hx
        · intro hc; exact hP r hc h
        · intro hc; exact hP _ hc (by rw [hnew]; exact h)
      · rw [if_neg h]
        cases hr : P r with
        | false => rw [List.filter_cons_of_neg (by simp [hr]), List.filter_cons_of_neg (by simp [hr]), ih]
        | true => rw [List.filter_cons_of_pos hr, List.filter_cons_of_pos hr, ih]
  refine ⟨?_, ?_, ?_, fun _ _ => hlast⟩
  · intro l hl
    apply hlast
    intro r hr
    have : r.loc = l := by simpa using hr
    rw [this]; exact hl
  · clear hlast
    induction met with
    | nil => rfl
    | cons r t ih =>
      unfold replaceFirst
      by_cases h : r.loc = loc
      · rw [if_pos h, List.filter_cons_of_pos (by rw [hnew]; simpa using h), List.filter_cons_of_pos (by simpa using h), List.filter_filter]
        have : (t.filter fun a => decide (a.loc = loc) && decide (a.loc ≠ loc)) = [] := by
          rw [List.filter_eq_nil_iff]
          intro a _
          simp
        rw [this]
        simp
      · rw [if_neg h, List.filter_cons_of_neg (by simpa using h), List.filter_cons_of_neg (by simpa using h), ih]
  · clear hlast
    induction met with
    | nil => exact List.Sublist.refl _
    | cons r t ih =>
      unfold replaceFirst
      by_cases h : r.loc = loc
      · rw [if_pos h, List.map_cons, List.map_cons, hnew]
        exact ((List.filter_sublist (l := t)).map _).cons_cons _
      · rw [if_neg h, List.map_cons, List.map_cons]
        exact ih.cons_cons _

/-- **C103.** The metrology used with `--use-spotmatch`: every location of a fiducial has one row, its first, with the mean of the coordinates of all rows of the location and PINHOLE_ID 99; the rows of the other locations are unchanged; the order of the rows is kept. -/
theorem C103_centres (met : List Met) :
    (∀ l, (∃ r ∈ met, r.loc = l ∧ isFid r = true) → ∃ r t, met.filter (fun r => r.loc = l) = r :: t ∧
      (centres met).filter (fun r => r.loc = l) =
        [{ r with fp := ((((r :: t).map (·.fp.1)).sum / (r :: t).length), (((r :: t).map (·.fp.2)).sum / (r :: t).length)), pinhole := 99 }]) ∧
    (centres met).filter (fun r => r.loc ∉ fidLocations met) = met.filter (fun r => r.loc ∉ fidLocations met) ∧
    ((centres met).map (·.loc)).Sublist (met.map (·.loc)) := by
  have hmemloc : ∀ l, l ∈ fidLocations met ↔ ∃ r ∈ met, r.loc = l ∧ isFid r = true := by
    intro l
    unfold fidLocations Model.Spotmatch.unique
    rw [Verif.Lemmas.mem_pySort, List.mem_dedup, List.mem_map]
    constructor
    · rintro ⟨r, hr, rfl⟩
      rw [List.mem_filter] at hr
      exact ⟨r, hr.1, rfl, hr.2⟩
    · rintro ⟨r, hr, rfl, hf⟩
      exact ⟨r, List.mem_filter.2 ⟨hr, hf⟩, rfl⟩
  have hnd : (fidLocations met).Nodup := by
    unfold fidLocations Model.Spotmatch.unique
    exact (Verif.Lemmas.perm_pySort _ _).nodup_iff.2 (List.nodup_dedup _)
  have hcentre : ∀ (m1 : List Met) (l : ℤ) (r : Met) (t : List Met), m1.filter (fun r => r.loc = l) = r :: t →
      centre m1 l = ((((r :: t).map (·.fp.1)).sum / (r :: t).length), (((r :: t).map (·.fp.2)).sum / (r :: t).length)) := by
    intro m1 l r t h
    unfold centre
    dsimp only
    rw [h]
  have gen : ∀ (ls : List ℤ) (m1 : List Met), ls.Nodup →
      (∀ l, l ∉ ls → (ls.foldl atCentre m1).filter (fun r => r.loc = l) = m1.filter (fun r => r.loc = l)) ∧
      (∀ l, l ∈ ls → ∀ r t, m1.filter (fun r => r.loc = l) = r :: t → (ls.foldl atCentre m1).filter (fun r => r.loc = l) =
        [{ r with fp := ((((r :: t).map (·.fp.1)).sum / (r :: t).length), (((r :: t).map (·.fp.2)).sum / (r :: t).length)), pinhole := 99 }]) ∧
      (∀ P : Met → Bool, (∀ r, P r = true → r.loc ∉ ls) → (ls.foldl atCentre m1).filter P = m1.filter P) ∧
      ((ls.foldl atCentre m1).map (·.loc)).Sublist (m1.map (·.loc)) := by
    intro ls
    induction ls with
    | nil =>
      intro m1 _
      exact ⟨fun _ _ => rfl, fun _ h => absurd h List.not_mem_nil, fun _ _ => rfl, List.Sublist.refl _⟩
    | cons a ls ih =>
      intro m1 hnd
      rw [List.nodup_cons] at hnd
      obtain ⟨i1, i2, i3, i4⟩ := ih (atCentre m1 a) hnd.2
      obtain ⟨s1, s2, s3, s4⟩ := replaceFirst_spec a (fun r => { r with fp := centre m1 a, pinhole := 99 }) (fun r => rfl) m1
      change ∀ l, l ≠ a → (atCentre m1 a).filter _ = _ at s1
      change (atCentre m1 a).filter _ = _ at s2
      change ((atCentre m1 a).map _).Sublist _ at s3
      rw [List.foldl_cons]
      refine ⟨?_, ?_, ?_, i4.trans s3⟩
      · intro l hl
        rw [List.mem_cons, not_or] at hl
        rw [i1 l hl.2, s1 l hl.1]
      · intro l hl r t hrt
        rcases List.mem_cons.1 hl with rfl | hl2
        · rw [i1 l hnd.1, s2, hrt, ← hcentre m1 l r t hrt]
          rfl
        · have hne : l ≠ a := by rintro rfl; exact hnd.1 hl2
          exact i2 l hl2 r t (by rw [s1 l hne]; exact hrt)
      · intro P hP
        rw [i3 P fun r hr => fun h => hP r hr (List.mem_cons_of_mem _ h)]
        exact s4 (a + 1) (by omega) P fun r hr h => hP r hr (by rw [h]; exact List.mem_cons_self)
  obtain ⟨g1, g2, g3, g4⟩ := gen (fidLocations met) met hnd
  refine ⟨?_, ?_, g4⟩
  · intro l hl
    obtain ⟨r0, hr0, hl0, _⟩ := id hl
    have hne : met.filter (fun r => r.loc = l) ≠ [] := by
      apply List.ne_nil_of_mem (a := r0)
      rw [List.mem_filter]
      exact ⟨hr0, by simpa using hl0⟩
    obtain ⟨r, t, hrt⟩ := List.exists_cons_of_ne_nil hne
    exact ⟨r, t, hrt, g2 l ((hmemloc l).2 hl) r t hrt⟩
  · apply g3
    intro r hr
    simpa using hr

end Verif.Props.FvcColumns
