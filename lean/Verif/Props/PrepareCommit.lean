import Verif.Props.Prepare

namespace Verif.Props
open Verif.Py Verif.Model.Prepare Verif.Props.Prep

variable {κ : Type} [DecidableEq κ]

/-- Allowed range of each fitted parameter. -/
noncomputable def limits : Param → ℝ × ℝ
  | .lengthR1 => (2.5, 3.5)
  | .lengthR2 => (2.5, 3.5)
  | .offsetT => (-200, 200)
  | .offsetP => (-30, 30)
  | .offsetX => (-500, 500)
  | .offsetY => (-500, 500)

/-- The tolerances of the five adjustable checks. -/
structure Tols where
  outliers : ℝ
  fitError : ℝ
  tighten : ℝ
  xy : ℝ
  arm : ℝ

/-- A row that passes all checks. -/
structure Passes (locs : List (ℤ × ℝ × ℝ)) (v : Tols) (r : Row κ) : Prop where
  complete : r.masked = false
  outliers : ((r.numPoints - r.numInFit : ℤ) : ℝ) ≤ v.outliers
  fitError : r.fitError ≤ v.fitError
  flags : ∀ i < 5, r.flags.testBit i = false
  bounds : ∀ p, (limits p).1 + ((limits p).2 - (limits p).1) * v.tighten ≤ r.param p ∧
    r.param p ≤ (limits p).2 - ((limits p).2 - (limits p).1) * v.tighten
  xy : ∃ x y, locs.filter (fun l => l.1 = r.deviceLoc) = [(r.deviceLoc, x, y)] ∧
    |r.param .offsetX - x| ≤ v.xy ∧ |r.param .offsetY - y| ≤ v.xy
  arm1 : |r.param .lengthR1 - 3| ≤ v.arm
  arm2 : |r.param .lengthR2 - 3| ≤ v.arm

/-- A value is the default or was typed by the user. -/
def DefaultOrTyped (parse : PyStr → Option ℝ) (inp : List PyStr) (d v : ℝ) : Prop :=
  v = d ∨ ∃ l ∈ inp, parse l = some v

namespace Prep

theorem eliminate_eliminate (e : Bool) (f g : Row κ → Bool) (hf : ∀ r b, f { r with disabled := b } = f r)
    (t : List (Row κ)) : eliminate e f (eliminate e g t) = eliminate e (fun r => g r || f r) t := by
  unfold eliminate
  cases e
  · simp only [Bool.false_eq_true, if_false]
    rw [List.filter_filter]
    apply List.filter_congr
    intro r _
    cases g r <;> cases f r <;> rfl
  · simp only [if_true]
    rw [List.map_map]
    apply List.map_congr_left
    intro r _
    simp only [Function.comp, hf, Bool.or_assoc]

theorem eliminate_false (e : Bool) (t : List (Row κ)) : eliminate e (fun _ => false) t = t := by
  unfold eliminate
  cases e
  · simp
  · simp only [if_true, Bool.or_false]
    exact List.map_id _

theorem foldl_eliminate {β : Type} (e : Bool) (F : β → Row κ → Bool) (hF : ∀ b r d, F b { r with disabled := d } = F b r)
    (l : List β) (t : List (Row κ)) :
    l.foldl (fun t b => eliminate e (F b) t) t = eliminate e (fun r => l.any fun b => F b r) t := by
  induction l generalizing t with
  | nil => simp only [List.foldl_nil, List.any_nil, eliminate_false]
  | cons b l ih =>
    rw [List.foldl_cons, ih, eliminate_eliminate]
    · rfl
    · intro r d; simp only [hF]

def fFlag (r : Row κ) : Bool := (List.range 5).any fun i => decide (2 ^ i &&& r.flags ≠ 0)

noncomputable def fBound (tf : ℝ) (r : Row κ) : Bool := params.any fun p =>
  decide (r.param p < min (bounds p).1 (bounds p).2 + (max (bounds p).1 (bounds p).2 - min (bounds p).1 (bounds p).2) * tf) ||
  decide (max (bounds p).1 (bounds p).2 - (max (bounds p).1 (bounds p).2 - min (bounds p).1 (bounds p).2) * tf < r.param p)

noncomputable def fXY (ls : List (ℤ × ℝ × ℝ)) (tol : ℝ) (r : Row κ) : Bool :=
  match xyBad ls tol r with | .ok b => b | .error _ => false

noncomputable def fArm (tol : ℝ) (r : Row κ) : Bool := decide (tol < |r.param .lengthR1 - 3|) || decide (tol < |r.param .lengthR2 - 3|)
noncomputable def fFit (tol : ℝ) (r : Row κ) : Bool := decide (tol < r.fitError)
noncomputable def fOut (tol : ℝ) (r : Row κ) : Bool := decide (tol < ((r.numPoints - r.numInFit : ℤ) : ℝ))
def fMask (r : Row κ) : Bool := r.masked

theorem checkFlags_eq (e : Bool) (t : List (Row κ)) : checkFlags e t = eliminate e fFlag t := by
  unfold checkFlags fFlag
  exact foldl_eliminate e (fun (i : ℕ) (r : Row κ) => decide (2 ^ i &&& r.flags ≠ 0)) (fun _ _ _ => rfl) _ t

theorem checkBounds_eq (e : Bool) (tf : ℝ) (t : List (Row κ)) : checkBounds e tf t = eliminate e (fBound tf) t := by
  unfold checkBounds fBound
  rw [← foldl_eliminate e (fun p (r : Row κ) =>
    decide (r.param p < min (bounds p).1 (bounds p).2 + (max (bounds p).1 (bounds p).2 - min (bounds p).1 (bounds p).2) * tf) ||
    decide (max (bounds p).1 (bounds p).2 - (max (bounds p).1 (bounds p).2 - min (bounds p).1 (bounds p).2) * tf < r.param p))
    (fun _ _ _ => rfl) params t]
  congr 1
  funext t p
  dsimp only
  rw [eliminate_eliminate]
  intro r b; rfl

theorem mapM_ok {α β : Type} {f : α → Except PyErr β} {t : List α} {l : List β} (h : t.mapM f = .ok l) :
    ∀ r ∈ t, ∃ b, f r = .ok b := by
  induction t generalizing l with
  | nil => intro r hr; cases hr
  | cons a t ih =>
    rw [List.mapM_cons] at h
    cases hf : f a with
    | error e => rw [hf] at h; cases h
    | ok b =>
      rw [hf] at h
      cases ht : t.mapM f with
      | error e => rw [ht] at h; cases h
      | ok l' =>
        intro r hr
        rcases List.mem_cons.1 hr with rfl | hr
        · exact ⟨b, hf⟩
        · exact ih ht r hr

theorem checkXY_ok {e : Bool} {locs : Except PyErr (List (ℤ × ℝ × ℝ))} {tol : ℝ} {t t' : List (Row κ)}
    (h : checkXY e locs tol t = .ok t') :
    ∃ ls, locs = .ok ls ∧ t' = eliminate e (fXY ls tol) t ∧ ∀ r ∈ t, ∃ c, nominal ls r.deviceLoc = .ok c := by
  unfold checkXY at h
  split at h
  · cases h
  · rename_i ls
    split at h
    · cases h
    · rename_i l hl
      injection h with h
      refine ⟨ls, rfl, h.symm, ?_⟩
      intro r hr
      obtain ⟨b, hb⟩ := mapM_ok hl r hr
      unfold xyBad at hb
      split at hb
      · cases hb
      · rename_i c hc
        exact ⟨c, hc⟩

theorem nominal_ok {ls : List (ℤ × ℝ × ℝ)} {loc : ℤ} {c : ℝ × ℝ} :
    nominal ls loc = .ok c ↔ ls.filter (fun l => l.1 = loc) = [(loc, c)] := by
  unfold nominal
  constructor
  · intro h
    split at h
    · rename_i l hl
      injection h with h
      rw [hl]
      have : l ∈ ls.filter (fun l => l.1 = loc) := by rw [hl]; simp
      have h1 := (List.mem_filter.1 this).2
      simp only [decide_eq_true_eq] at h1
      obtain ⟨a, b⟩ := l
      simp only at h h1
      rw [h, h1]
    · cases h
  · intro h
    rw [h]

/-- The adjustment dialogue ends with the result of the check for the default or a typed value. -/
theorem adjust_spec {τ : Type} (parse : PyStr → Option ℝ) (run : ℝ → Except PyErr τ) (inp : List PyStr) (pr : Prompt)
    (v : ℝ) (out out' : τ) (rest : List PyStr) (hv : run v = .ok out) (h : adjust parse run pr v out inp = .ok (out', rest)) :
    ∃ w, run w = .ok out' ∧ DefaultOrTyped parse inp v w := by
  induction inp generalizing pr v out with
  | nil => cases pr <;> (rw [adjust] at h; cases h)
  | cons l inp ih =>
    have weaken : ∀ {v w}, DefaultOrTyped parse inp v w → DefaultOrTyped parse (l :: inp) v w := by
      rintro v w (h | ⟨x, hx, h⟩)
      · exact Or.inl h
      · exact Or.inr ⟨x, by simp [hx], h⟩
    cases pr with
    | again =>
      rw [adjust] at h
      split at h
      · obtain ⟨w, h1, h2⟩ := ih _ _ _ hv h; exact ⟨w, h1, weaken h2⟩
      · cases h
      · obtain ⟨w, h1, h2⟩ := ih _ _ _ hv h; exact ⟨w, h1, weaken h2⟩
      · injection h with h
        injection h with h1 h2
        subst h1
        exact ⟨v, hv, Or.inl rfl⟩
      · obtain ⟨w, h1, h2⟩ := ih _ _ _ hv h; exact ⟨w, h1, weaken h2⟩
    | value =>
      rw [adjust] at h
      split_ifs at h
      · injection h with h
        injection h with h1 h2
        subst h1
        exact ⟨v, hv, Or.inl rfl⟩
      · split at h
        · obtain ⟨w, h1, h2⟩ := ih _ _ _ hv h; exact ⟨w, h1, weaken h2⟩
        · rename_i w hw
          split_ifs at h
          · injection h with h
            injection h with h1 h2
            subst h1
            exact ⟨v, hv, Or.inl rfl⟩
          · split at h
            · cases h
            · rename_i o ho
              obtain ⟨w', h1, h2⟩ := ih _ _ _ ho h
              refine ⟨w', h1, ?_⟩
              rcases h2 with h2 | ⟨x, hx, h2⟩
              · exact Or.inr ⟨l, by simp, by rw [h2]; exact hw⟩
              · exact Or.inr ⟨x, by simp [hx], h2⟩

theorem adjust_suffix {τ : Type} (parse : PyStr → Option ℝ) (run : ℝ → Except PyErr τ) (inp : List PyStr) (pr : Prompt)
    (v : ℝ) (out out' : τ) (rest : List PyStr) (h : adjust parse run pr v out inp = .ok (out', rest)) : rest <:+ inp := by
  induction inp generalizing pr v out with
  | nil => cases pr <;> (rw [adjust] at h; cases h)
  | cons l inp ih =>
    have hend : ∀ {o : τ}, (Except.ok (o, inp) : Except PyErr (τ × List PyStr)) = .ok (out', rest) → rest <:+ l :: inp := by
      intro o h
      injection h with h
      injection h with h1 h2
      subst h2
      exact List.suffix_cons _ _
    have hrec : ∀ pr v out, adjust parse run pr v out inp = .ok (out', rest) → rest <:+ l :: inp :=
      fun pr v out h => (ih pr v out h).trans (List.suffix_cons _ _)
    cases pr with
    | again =>
      rw [adjust] at h
      split at h
      · exact hrec _ _ _ h
      · cases h
      · exact hrec _ _ _ h
      · exact hend h
      · exact hrec _ _ _ h
    | value =>
      rw [adjust] at h
      split_ifs at h
      · exact hend h
      · split at h
        · exact hrec _ _ _ h
        · split_ifs at h
          · exact hend h
          · split at h
            · cases h
            · exact hrec _ _ _ h

theorem runAndAdjust_spec {τ : Type} {parse : PyStr → Option ℝ} {run : ℝ → Except PyErr τ} {inp0 inp : List PyStr}
    {v : ℝ} {out : τ} {rest : List PyStr} (hs : inp <:+ inp0) (h : runAndAdjust parse run v inp = .ok (out, rest)) :
    (∃ w, run w = .ok out ∧ DefaultOrTyped parse inp0 v w) ∧ rest <:+ inp0 := by
  unfold runAndAdjust at h
  split at h
  · cases h
  · rename_i o ho
    obtain ⟨w, h1, h2⟩ := adjust_spec parse run inp .again v o out rest ho h
    refine ⟨⟨w, h1, ?_⟩, (adjust_suffix parse run inp .again v o out rest h).trans hs⟩
    rcases h2 with h2 | ⟨x, hx, h2⟩
    · exact Or.inl h2
    · exact Or.inr ⟨x, hs.subset hx, h2⟩

theorem acknowledge_spec {τ : Type} {o out : τ} {inp rest : List PyStr} (h : acknowledge o inp = .ok (out, rest)) :
    out = o ∧ rest <:+ inp := by
  cases inp with
  | nil => cases h
  | cons l inp =>
    injection h with h
    injection h with h1 h2
    exact ⟨h1.symm, h2 ▸ List.suffix_cons _ _⟩

theorem yesnohelp_suffix (y n h e : Bool) (inp : List PyStr) (a : Answer) (rest : List PyStr)
    (hh : yesnohelp y n h e inp = .ok (a, rest)) : rest <:+ inp := by
  induction inp generalizing y n h e with
  | nil => rw [yesnohelp] at hh; split_ifs at hh
  | cons l inp ih =>
    rw [yesnohelp] at hh
    dsimp only at hh
    split_ifs at hh
    · injection hh with hh; injection hh with h1 h2; subst h2; exact List.suffix_cons _ _
    · injection hh with hh; injection hh with h1 h2; subst h2; exact List.suffix_cons _ _
    · injection hh with hh; injection hh with h1 h2; subst h2; exact List.suffix_cons _ _
    · exact (ih _ _ _ _ hh).trans (List.suffix_cons _ _)

theorem confirmMode_suffix {e : Bool} {inp rest : List PyStr} (h : confirmMode e inp = .ok rest) : rest <:+ inp := by
  unfold confirmMode at h
  split_ifs at h
  · split at h
    · cases h
    · rename_i a r hy
      injection h with h
      subst h
      exact yesnohelp_suffix _ _ _ _ _ _ _ hy
  · injection h with h
    subst h
    exact List.suffix_refl _

theorem ebind_ok {ε α β : Type} {x : Except ε α} {f : α → Except ε β} {b : β} (h : x.bind f = .ok b) :
    ∃ a, x = .ok a ∧ f a = .ok b := by
  cases x with
  | error e => cases h
  | ok a => exact ⟨a, rfl, h⟩

/-- The commit columns. -/
theorem commitLoop_spec (present : CommitKey → Bool) (ks : List CommitKey) (hnd : ks.Nodup) (t t' : List (OutRow κ))
    (inp rest : List PyStr) (h : commitLoop present ks t inp = .ok (t', rest)) :
    ∃ vals : CommitKey → Bool, (∀ k, skipped present k = true → vals k = false) ∧
      t' = t.map fun o => { o with commit := fun k => if k ∈ ks then vals k && (k == .disable || o.row.disabled == false) else o.commit k } := by
  induction ks generalizing t inp with
  | nil =>
    injection h with h
    injection h with h1 h2
    refine ⟨fun _ => false, fun _ _ => rfl, ?_⟩
    rw [← h1]
    simp
  | cons k ks ih =>
    rw [List.nodup_cons] at hnd
    rw [commitLoop] at h
    split at h
    · cases h
    · rename_i val inp' hval
      obtain ⟨vals, hv, ht⟩ := ih hnd.2 _ _ h
      refine ⟨Function.update vals k val, ?_, ?_⟩
      · intro k' hk'
        by_cases e : k' = k
        · subst e
          rw [Function.update_self]
          rw [if_pos hk'] at hval
          injection hval with hval
          injection hval with h1 h2
          exact h1.symm
        · rw [Function.update_of_ne e]; exact hv k' hk'
      · rw [ht, List.map_map]
        apply List.map_congr_left
        intro o _
        simp only [Function.comp, OutRow.mk.injEq, true_and]
        funext k'
        by_cases e : k' = k
        · subst e
          rw [if_neg hnd.1, Function.update_self, if_pos (by simp), Function.update_self]
        · rw [Function.update_of_ne e, Function.update_of_ne e]
          refine if_congr ?_ rfl rfl
          simp [e]

theorem and_two_pow_ne_zero (i n : ℕ) : (2 ^ i &&& n ≠ 0) ↔ n.testBit i = true := by
  rw [Nat.two_pow_and]
  cases n.testBit i
  · simp
  · simp

end Prep

/-- C44: no calibration value is marked for commit on a row flagged nonfunctional; scale and
physical range columns are never committed; apart from that, each column is committed for all
rows or for none. -/
theorem C44_commit {c : Config κ} {table : List (Row κ)} {inp : List PyStr} {out : List (OutRow κ)}
    (h : prepare c table inp = .ok out) :
    (∀ o ∈ out, ∀ k, k ≠ .disable → o.commit k = true → o.row.disabled = false) ∧
    (∀ o ∈ out, o.commit .scaleT = false ∧ o.commit .scaleP = false ∧ o.commit .rangeT = false ∧ o.commit .rangeP = false) ∧
    (∀ k, (∀ o ∈ out, o.row.disabled = false ∨ k = .disable → o.commit k = true) ∨ (∀ o ∈ out, o.commit k = false)) := by
  unfold prepare at h
  dsimp only at h
  obtain ⟨i0, -, h⟩ := ebind_ok h
  obtain ⟨⟨t2, i1⟩, -, h⟩ := ebind_ok h
  obtain ⟨⟨t3, i2⟩, -, h⟩ := ebind_ok h
  obtain ⟨⟨t4, i3⟩, -, h⟩ := ebind_ok h
  obtain ⟨⟨t5, i4⟩, -, h⟩ := ebind_ok h
  obtain ⟨⟨t6, i5⟩, -, h⟩ := ebind_ok h
  obtain ⟨⟨t7, i6⟩, -, h⟩ := ebind_ok h
  obtain ⟨⟨t8, i7⟩, -, h⟩ := ebind_ok h
  obtain ⟨⟨t9, i8⟩, -, h⟩ := ebind_ok h
  obtain ⟨⟨t10, i9⟩, hc, h⟩ := ebind_ok h
  injection h with h
  subst h
  obtain ⟨vals, hv, ht⟩ := commitLoop_spec c.present commitKeys (by decide) _ _ _ _ hc
  rw [List.map_map] at ht
  have hall : ∀ k, k ∈ commitKeys := by
    intro k
    cases k with
    | param p => cases p <;> decide
    | _ => decide
  have hcom : ∀ o ∈ t10, ∀ k, o.commit k = (vals k && (k == .disable || o.row.disabled == false)) := by
    intro o ho k
    rw [ht] at ho
    obtain ⟨r, -, rfl⟩ := List.mem_map.1 ho
    simp only [Function.comp, if_pos (hall k)]
  refine ⟨?_, ?_, ?_⟩
  · intro o ho k hk hc
    rw [hcom o ho, Bool.and_eq_true, Bool.or_eq_true] at hc
    rcases hc.2 with h | h
    · exact absurd (by simpa using h) hk
    · simpa using h
  · intro o ho
    refine ⟨?_, ?_, ?_, ?_⟩ <;>
    · rw [hcom o ho, hv _ (by simp [skipped])]; rfl
  · intro k
    cases hk : vals k with
    | false => right; intro o ho; rw [hcom o ho, hk]; rfl
    | true =>
      left
      intro o ho hd
      rw [hcom o ho, hk]
      rcases hd with hd | hd
      · simp [hd]
      · simp [hd]

/-- C44: what remains.  There are tolerances, each the default or typed by the user, such that:
in normal mode every row written passes every check and is not flagged; in enabling mode a row
written is flagged exactly when it fails some check; every positioner appears once; and every
positioner with a single row that passes (in enabling mode: with a single row) is in the table
with its values unchanged. -/
theorem C44_checked {c : Config κ} {table : List (Row κ)} {inp : List PyStr} {out : List (OutRow κ)}
    (h : prepare c table inp = .ok out) :
    ∃ (locs : List (ℤ × ℝ × ℝ)) (v : Tols), c.locs = .ok locs ∧
      DefaultOrTyped c.parse inp 2 v.outliers ∧ DefaultOrTyped c.parse inp 0.03 v.fitError ∧
      DefaultOrTyped c.parse inp 0.001 v.tighten ∧ DefaultOrTyped c.parse inp 0.5 v.xy ∧
      DefaultOrTyped c.parse inp 0.5 v.arm ∧ 0 ≤ v.outliers ∧
      (∀ o ∈ out, ∃ r ∈ table, o.row = { r with disabled := o.row.disabled }) ∧
      (c.setEnabling = false → ∀ o ∈ out, Passes locs v o.row ∧ o.row.disabled = false) ∧
      (c.setEnabling = true → ∀ o ∈ out, (o.row.disabled = false ↔ Passes locs v o.row)) ∧
      (out.map fun o => o.row.posId).Nodup ∧
      (∀ r ∈ table, (table.filter fun s => s.posId = r.posId).length = 1 → (c.setEnabling = true ∨ Passes locs v r) →
        ∃ o ∈ out, o.row = { r with disabled := o.row.disabled }) := by
  unfold prepare at h
  dsimp only at h
  set e := c.setEnabling with he
  obtain ⟨i0, h0, h⟩ := ebind_ok h
  obtain ⟨⟨t2, i1⟩, h1, h⟩ := ebind_ok h
  obtain ⟨⟨t3, i2⟩, h2, h⟩ := ebind_ok h
  obtain ⟨⟨t4, i3⟩, h3, h⟩ := ebind_ok h
  obtain ⟨⟨t5, i4⟩, h4, h⟩ := ebind_ok h
  obtain ⟨⟨t6, i5⟩, h5, h⟩ := ebind_ok h
  obtain ⟨⟨t7, i6⟩, h6, h⟩ := ebind_ok h
  obtain ⟨⟨t8, i7⟩, h7, h⟩ := ebind_ok h
  obtain ⟨⟨t9, i8⟩, h8, h⟩ := ebind_ok h
  obtain ⟨⟨t10, i9⟩, h9, h⟩ := ebind_ok h
  injection h with h
  subst h
  simp only at h1 h2 h3 h4 h5 h6 h7 h8 h9
  have s0 := confirmMode_suffix h0
  obtain ⟨⟨v1, r1, d1⟩, s1⟩ := runAndAdjust_spec s0 h1
  obtain ⟨⟨v2, r2, d2⟩, s2⟩ := runAndAdjust_spec s1 h2
  obtain ⟨r3, s3⟩ := acknowledge_spec h3
  replace s3 := s3.trans s2
  obtain ⟨⟨v4, r4, d4⟩, s4⟩ := runAndAdjust_spec s3 h4
  obtain ⟨⟨v5, r5, d5⟩, s5⟩ := runAndAdjust_spec s4 h5
  obtain ⟨⟨v6, r6, d6⟩, s6⟩ := runAndAdjust_spec s5 h6
  obtain ⟨r8, -⟩ := acknowledge_spec h8
  obtain ⟨vals, -, ht⟩ := commitLoop_spec c.present commitKeys (by decide) _ _ _ _ h9
  rw [List.map_map] at ht
  unfold checkOutliers at r1
  split_ifs at r1 with hpos
  injection r1 with r1
  injection r2 with r2
  injection r4 with r4
  injection r6 with r6
  obtain ⟨ls, hls, r5, hnom⟩ := checkXY_ok r5
  set t0 := table.map fun r => { r with disabled := false } with ht0
  -- the rows before the uniqueness check
  have e5 : t5 = eliminate e (fun r => (((fMask r || fOut v1 r) || fFit v2 r) || fFlag r) || fBound v4 r) t0 := by
    rw [← r4, checkBounds_eq, r3, checkFlags_eq, ← r2]
    unfold checkFitError
    rw [← r1]
    rw [eliminate_eliminate e (fun r => decide (v1 < ((r.numPoints - r.numInFit : ℤ) : ℝ))) (fun r => r.masked) (fun _ _ => rfl),
      eliminate_eliminate e (fun r => decide (v2 < r.fitError)) _ (fun _ _ => rfl),
      eliminate_eliminate e fFlag _ (fun _ _ => rfl), eliminate_eliminate e (fBound v4) _ (fun _ _ => rfl)]
    rfl
  have e7 : t7 = eliminate e (fun r => ((((((fMask r || fOut v1 r) || fFit v2 r) || fFlag r) || fBound v4 r) || fXY ls v5 r) || fArm v6 r)) t0 := by
    rw [← r6, r5, e5]
    unfold checkArms
    rw [eliminate_eliminate e (fXY ls v5) _ (fun _ _ => rfl),
      eliminate_eliminate e (fun r => decide (v6 < |r.param .lengthR1 - 3|) || decide (v6 < |r.param .lengthR2 - 3|)) _ (fun _ _ => rfl)]
    rfl
  set v : Tols := ⟨v1, v2, v4, v5, v6⟩ with hv
  set F : Row κ → Bool := fun r => ((((((fMask r || fOut v1 r) || fFit v2 r) || fFlag r) || fBound v4 r) || fXY ls v5 r) || fArm v6 r) with hF
  have hFd : ∀ r b, F { r with disabled := b } = F r := fun _ _ => rfl
  have hPd : ∀ (r : Row κ) b, Passes ls v { r with disabled := b } ↔ Passes ls v r := by
    intro r b
    constructor
    · rintro ⟨a1, a2, a3, a4, a5, a6, a7, a8⟩; exact ⟨a1, a2, a3, a4, a5, a6, a7, a8⟩
    · rintro ⟨a1, a2, a3, a4, a5, a6, a7, a8⟩; exact ⟨a1, a2, a3, a4, a5, a6, a7, a8⟩
  -- flags
  have hflag : ∀ r : Row κ, fFlag r = false ↔ ∀ i < 5, r.flags.testBit i = false := by
    intro r
    unfold fFlag
    rw [List.any_eq_false]
    constructor
    · intro hh i hi
      have := hh i (List.mem_range.2 hi)
      rw [decide_eq_true_eq, and_two_pow_ne_zero] at this
      simpa using this
    · intro hh i hi
      rw [decide_eq_true_eq, and_two_pow_ne_zero, hh i (List.mem_range.1 hi)]
      simp
  have hbound : ∀ r : Row κ, fBound v4 r = false ↔
      ∀ p, (limits p).1 + ((limits p).2 - (limits p).1) * v4 ≤ r.param p ∧
        r.param p ≤ (limits p).2 - ((limits p).2 - (limits p).1) * v4 := by
    intro r
    unfold fBound
    rw [List.any_eq_false]
    have hb : ∀ p, min (bounds p).1 (bounds p).2 = (limits p).1 ∧ max (bounds p).1 (bounds p).2 = (limits p).2 := by
      intro p
      cases p <;> simp only [bounds, limits] <;> constructor <;> first | (apply min_eq_left; norm_num) | (apply max_eq_right; norm_num)
    have hmem : ∀ p, p ∈ params := by intro p; cases p <;> decide
    constructor
    · intro hh p
      have := hh p (hmem p)
      rw [(hb p).1, (hb p).2, Bool.or_eq_true, not_or, decide_eq_true_eq, decide_eq_true_eq, not_lt, not_lt] at this
      exact this
    · intro hh p _
      rw [(hb p).1, (hb p).2, Bool.or_eq_true, not_or, decide_eq_true_eq, decide_eq_true_eq, not_lt, not_lt]
      exact hh p
  have hxy : ∀ r : Row κ, (∃ q, nominal ls r.deviceLoc = .ok q) → (fXY ls v5 r = false ↔
      ∃ x y, ls.filter (fun l => l.1 = r.deviceLoc) = [(r.deviceLoc, x, y)] ∧
        |r.param .offsetX - x| ≤ v5 ∧ |r.param .offsetY - y| ≤ v5) := by
    rintro r ⟨q, hq⟩
    unfold fXY xyBad
    rw [hq]
    simp only [Bool.or_eq_false_iff, decide_eq_false_iff_not, not_lt]
    constructor
    · intro hh
      exact ⟨q.1, q.2, nominal_ok.1 hq, hh⟩
    · rintro ⟨x, y, hxy, hh⟩
      rw [nominal_ok.1 hq] at hxy
      simp only [List.cons.injEq, Prod.mk.injEq, true_and, and_true] at hxy
      rw [hxy]; exact hh
  -- every row whose earlier checks passed (or every row in enabling mode) has a nominal centre
  have hcentre : ∀ r ∈ t0, e = true ∨ ((((fMask r || fOut v1 r) || fFit v2 r) || fFlag r) || fBound v4 r) = false →
      ∃ q, nominal ls r.deviceLoc = .ok q := by
    intro r hr hcase
    rw [e5] at hnom
    cases hee : e with
    | true =>
      rw [hee] at hnom
      unfold eliminate at hnom
      rw [if_pos rfl] at hnom
      obtain ⟨q, hq⟩ := hnom _ (List.mem_map_of_mem hr)
      exact ⟨q, hq⟩
    | false =>
      rw [hee] at hnom hcase
      rcases hcase with hcase | hcase
      · cases hcase
      · unfold eliminate at hnom
        rw [if_neg (by simp)] at hnom
        exact hnom r (List.mem_filter.2 ⟨hr, by simp only [hcase]; rfl⟩)
  have hFP : ∀ r ∈ t0, (F r = false ↔ Passes ls v r) := by
    intro r hr
    constructor
    · intro hf
      simp only [hF, Bool.or_eq_false_iff] at hf
      obtain ⟨⟨⟨⟨⟨⟨f1, f2⟩, f3⟩, f4⟩, f5⟩, f6⟩, f7⟩ := hf
      have hq := hcentre r hr (Or.inr (by simp [f1, f2, f3, f4, f5]))
      simp only [fOut, fFit, fArm, decide_eq_false_iff_not, not_lt, Bool.or_eq_false_iff] at f2 f3 f7
      exact ⟨f1, f2, f3, (hflag r).1 f4, (hbound r).1 f5, (hxy r hq).1 f6, f7.1, f7.2⟩
    · rintro ⟨a1, a2, a3, a4, a5, a6, a7, a8⟩
      have hq : ∃ q, nominal ls r.deviceLoc = .ok q := by
        obtain ⟨x, y, hh, -⟩ := a6
        exact ⟨(x, y), nominal_ok.2 hh⟩
      simp only [hF, Bool.or_eq_false_iff]
      refine ⟨⟨⟨⟨⟨⟨a1, ?_⟩, ?_⟩, (hflag r).2 a4⟩, (hbound r).2 a5⟩, (hxy r hq).2 a6⟩, ?_⟩
      · simp only [fOut, decide_eq_false_iff_not, not_lt]; exact a2
      · simp only [fFit, decide_eq_false_iff_not, not_lt]; exact a3
      · simp only [fArm, decide_eq_false_iff_not, not_lt, Bool.or_eq_false_iff]; exact ⟨a7, a8⟩
  have hout : ∀ r, (∃ o ∈ t10, o.row = r) ↔ r ∈ t8 := by
    intro r
    rw [ht, r8]
    constructor
    · rintro ⟨o, ho, rfl⟩
      obtain ⟨r', hr', rfl⟩ := List.mem_map.1 ho
      exact hr'
    · intro hr
      exact ⟨_, List.mem_map.2 ⟨r, hr, rfl⟩, rfl⟩
  obtain ⟨u1, u2, u3⟩ := C45_unique h7
  have hmem7 : ∀ r ∈ t7, (∃ r0 ∈ t0, r = { r0 with disabled := r.disabled } ∧ r.disabled = (e && F r0)) ∧ (e = false → F r = false) := by
    intro r hr
    rw [e7] at hr
    cases hee : e with
    | true =>
      rw [hee] at hr
      unfold eliminate at hr
      rw [if_pos rfl] at hr
      obtain ⟨r0, hr0, rfl⟩ := List.mem_map.1 hr
      refine ⟨⟨r0, hr0, rfl, ?_⟩, by simp⟩
      obtain ⟨rr, -, rfl⟩ := List.mem_map.1 hr0
      rfl
    | false =>
      rw [hee] at hr
      unfold eliminate at hr
      rw [if_neg (by simp)] at hr
      obtain ⟨hr0, hf⟩ := List.mem_filter.1 hr
      refine ⟨⟨r, hr0, rfl, ?_⟩, ?_⟩
      · obtain ⟨rr, -, rfl⟩ := List.mem_map.1 hr0
        rfl
      · intro _; simpa using hf
  have hsub : ((t7.map Row.posId).Sublist (table.map Row.posId)) := by
    have e0 : table.map Row.posId = t0.map Row.posId := by rw [ht0, List.map_map]; rfl
    rw [e0, e7]
    unfold eliminate
    split_ifs
    · rw [List.map_map]; exact List.Sublist.refl _
    · exact List.filter_sublist.map _
  refine ⟨ls, v, hls, d1, d2, d4, d5, d6, hpos, ?_, ?_, ?_, ?_, ?_⟩
  · intro o ho
    have := u1.subset ((hout o.row).1 ⟨o, ho, rfl⟩)
    obtain ⟨⟨r0, hr0, hr, -⟩, -⟩ := hmem7 _ this
    obtain ⟨rr, hrr, rfl⟩ := List.mem_map.1 hr0
    exact ⟨rr, hrr, hr⟩
  · intro hee o ho
    have hm := u1.subset ((hout o.row).1 ⟨o, ho, rfl⟩)
    obtain ⟨⟨r0, hr0, hr, hd⟩, hf⟩ := hmem7 _ hm
    rw [hee] at hd
    have h0 : F r0 = false := by
      have := hf hee
      rw [hr, hFd] at this; exact this
    refine ⟨?_, by simpa using hd⟩
    rw [hr, hPd]
    exact (hFP r0 hr0).1 h0
  · intro hee o ho
    have hm := u1.subset ((hout o.row).1 ⟨o, ho, rfl⟩)
    obtain ⟨⟨r0, hr0, hr, hd⟩, -⟩ := hmem7 _ hm
    rw [hee, Bool.true_and] at hd
    rw [hd, hFP r0 hr0]
    conv_rhs => rw [hr, hPd]
  · have e1 : (t10.map fun o => o.row.posId) = t8.map Row.posId := by
      rw [ht, r8, List.map_map]; rfl
    rw [e1]; exact u2
  · intro r hr hone hcase
    have hr0 : ({ r with disabled := false } : Row κ) ∈ t0 := List.mem_map.2 ⟨r, hr, rfl⟩
    have h7m : ∃ r7 ∈ t7, r7 = { r with disabled := r7.disabled } := by
      rw [e7]
      unfold eliminate
      split_ifs with hee
      · exact ⟨_, List.mem_map.2 ⟨_, hr0, rfl⟩, rfl⟩
      · refine ⟨_, List.mem_filter.2 ⟨hr0, ?_⟩, rfl⟩
        rcases hcase with hcase | hcase
        · exact absurd hcase hee
        · have := (hFP _ hr0).2 ((hPd r false).2 hcase)
          change (!F _) = true
          rw [this]; rfl
    obtain ⟨r7, hr7, e7r⟩ := h7m
    have hid : r7.posId = r.posId := by rw [e7r]
    have hcount : (t7.filter fun s => decide (s.posId = r7.posId)).length = 1 := by
      have c1 : ∀ (l : List (Row κ)) (q : κ), (l.filter fun s => decide (s.posId = q)).length = (l.map Row.posId).count q := by
        intro l q
        rw [List.count_eq_length_filter, List.filter_map, List.length_map]
        rfl
      have hle : (t7.filter fun s => decide (s.posId = r7.posId)).length ≤ 1 := by
        rw [c1, hid]
        refine (hsub.count_le _).trans ?_
        rw [← c1, hone]
      have hge : 0 < (t7.filter fun s => decide (s.posId = r7.posId)).length :=
        List.length_pos_of_mem (List.mem_filter.2 ⟨hr7, by simp⟩)
      omega
    obtain ⟨o, ho, hor⟩ := (hout r7).2 (u3 r7 hr7 hcount)
    exact ⟨o, ho, by rw [hor]; exact e7r⟩

/-- C44 (finding): the routine that loads the nominal positioner locations uses a name that is
not imported (NameError); with it, the script never writes a table, whatever is typed. -/
theorem C44_never_writes (c : Config κ) (hl : c.locs = .error .nameError) (table : List (Row κ)) (inp : List PyStr) :
    ∃ err, prepare c table inp = .error err := by
  cases h : prepare c table inp with
  | error e => exact ⟨e, rfl⟩
  | ok out =>
    obtain ⟨ls, v, hls, -⟩ := C44_checked h
    rw [hl] at hls; cases hls

theorem Prep.runAndAdjust_no {τ : Type} (parse : PyStr → Option ℝ) (run : ℝ → Except PyErr τ) (v : ℝ) (out : τ)
    (rest : List PyStr) (h : run v = .ok out) : runAndAdjust parse run v ("no".toList :: rest) = .ok (out, rest) := by
  unfold runAndAdjust
  rw [h]
  simp only
  rw [adjust, show classify "no".toList = some (some .no) by decide]

theorem Prep.eliminate_one (f : Row κ → Bool) (r : Row κ) (h : f r = false) : eliminate false f [r] = [r] := by
  unfold eliminate
  simp [h]

/-- The row of the example below. -/
noncomputable def goodRow : Row ℕ :=
  ⟨1, 5, 0, 20, 19, 0.01, fun p => match p with | .offsetX => 10 | .offsetY => 20 | .lengthR1 => 3 | .lengthR2 => 3 | _ => 0, false, false⟩

/-- A run that writes: one good row, no adjustment. -/
example : ∃ out, prepare (κ := ℕ) ⟨false, .ok [(5, 10, 20)], fun _ => none, fun l => l, fun _ => true⟩ [goodRow]
    (List.replicate 14 "no".toList) = .ok out ∧ out ≠ [] := by
  have a1 : checkOutliers false 2 [goodRow] = .ok [goodRow] := by
    unfold checkOutliers
    rw [if_pos (by norm_num), eliminate_one]
    simp only [goodRow, decide_eq_false_iff_not, not_lt]; norm_num
  have a2 : checkFitError false 0.03 [goodRow] = [goodRow] := by
    unfold checkFitError
    rw [eliminate_one]
    simp only [goodRow, decide_eq_false_iff_not, not_lt]; norm_num
  have a3 : checkFlags false [goodRow] = [goodRow] := by
    rw [checkFlags_eq, eliminate_one]
    simp [fFlag, goodRow]
  have a4 : checkBounds false 0.001 [goodRow] = [goodRow] := by
    rw [checkBounds_eq, eliminate_one]
    simp only [fBound, params, List.any_cons, List.any_nil, Bool.or_eq_false_iff, decide_eq_false_iff_not, not_lt, bounds, goodRow]
    norm_num
  have a5 : checkXY false (.ok [(5, 10, 20)]) 0.5 [goodRow] = .ok [goodRow] := by
    have hx : xyBad [(5, 10, 20)] 0.5 goodRow = .ok false := by
      have hn : nominal [(5, 10, 20)] goodRow.deviceLoc = .ok (10, 20) := by simp [nominal, goodRow]
      unfold xyBad
      rw [hn]
      simp only [goodRow, Except.ok.injEq, Bool.or_eq_false_iff, decide_eq_false_iff_not, not_lt]
      norm_num
    unfold checkXY
    simp only [List.mapM_cons, List.mapM_nil, hx]
    simp only [bind, Except.bind, pure, Except.pure]
    rw [eliminate_one]
    rw [hx]
  have a6 : checkArms false 0.5 [goodRow] = [goodRow] := by
    unfold checkArms
    rw [eliminate_one]
    simp only [goodRow, Bool.or_eq_false_iff, decide_eq_false_iff_not, not_lt]; norm_num
  have a0 : eliminate false (fun r : Row ℕ => r.masked) [goodRow] = [goodRow] := eliminate_one _ _ rfl
  have a7 : ∀ inp, checkUniqueness Row.posId ([goodRow].map Row.posId) [goodRow] inp = .ok ([goodRow], inp) := by
    intro inp
    have : (rowIdxs Row.posId [goodRow] goodRow.posId).length = 1 := by
      rw [rowIdxs_length]; simp
    unfold checkUniqueness
    rw [List.map_cons, List.map_nil, uniqLoop]
    simp only [this, if_true]
    rw [uniqLoop]
    simp
  have hgd : ([goodRow].map fun r : Row ℕ => ({ r with disabled := false } : Row ℕ)) = [goodRow] := rfl
  unfold prepare
  dsimp only
  rw [hgd, a0]
  simp only [List.replicate]
  rw [show confirmMode false _ = .ok _ from rfl]
  simp only [Except.bind]
  rw [runAndAdjust_no _ _ _ _ _ a1]
  simp only
  rw [runAndAdjust_no _ (fun v => .ok (checkFitError false v [goodRow])) _ _ _ (congrArg Except.ok a2)]
  simp only
  rw [a3, acknowledge]
  simp only
  rw [runAndAdjust_no _ (fun v => .ok (checkBounds false v [goodRow])) _ _ _ (congrArg Except.ok a4)]
  simp only
  rw [runAndAdjust_no _ _ _ _ _ a5]
  simp only
  rw [runAndAdjust_no _ (fun v => .ok (checkArms false v [goodRow])) _ _ _ (congrArg Except.ok a6)]
  simp only
  rw [a7]
  simp only
  rw [acknowledge]
  simp only
  exact ⟨_, rfl, List.cons_ne_nil _ _⟩

end Verif.Props
