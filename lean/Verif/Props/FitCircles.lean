import Verif.Model.FitCircles
import Verif.Props.Circles
import Verif.Props.Xy2qs
import Verif.Props.MatchPositioners
import Verif.Props.GetPosmoves
import Verif.Props.Int2ptl

/-!
# Property C78: centres of circles from many exposures (`bin/desi_fit_circles`)
-/

namespace Verif.Props.FitCircles
open Verif.Py Verif.Model.FitCircles Verif.Spec Verif.Lemmas
open Verif.Model.Circles (meanL fitCircle fastFit)
open Verif.Model.Xy2qs (xy2uv uv2xy)
open Verif.Props

/-! ### What is expected -/

/-- The rows of a file about pinhole `p` of location `l`. -/
def About (l p : ℤ) (t : List Row) : List Row := t.filter fun r => r.loc = l ∧ r.pin = p

/-- The one such row, if there is exactly one. -/
def only (l p : ℤ) (t : List Row) : Option Row :=
  match About l p t with
  | [r] => some r
  | _ => none

/-- The measurements: one from each file with exactly one such row. -/
def seen (files : List (List Row)) (l p : ℤ) : List (ℝ × ℝ) := files.filterMap fun t => (only l p t).map Row.meas

/-- The expected position: that of the first such row of the first file, else of the first file with exactly one such row. -/
def expected (files : List (List Row)) (l p : ℤ) : Option (ℝ × ℝ) :=
  match files with
  | [] => none
  | t :: rest => ((About l p t).head? <|> rest.findSome? (only l p)).map Row.exp

/-- Pinhole numbers have one digit. -/
def Digits (files : List (List Row)) : Prop := ∀ t ∈ files, ∀ r ∈ t, 0 ≤ r.pin ∧ r.pin ≤ 9

/-- The measurements used: those with a non zero first coordinate. -/
noncomputable def good (files : List (List Row)) (l p : ℤ) : List (ℝ × ℝ) := (seen files l p).filter fun q => q.1 ≠ 0

/-- `m` is the mean of the two middle values (or the middle one) in increasing order. -/
def Middle (l : List ℝ) (m : ℝ) : Prop :=
  ∃ s : List ℝ, s.Perm l ∧ s.Pairwise (· ≤ ·) ∧ m = (s.getD ((l.length - 1) / 2) 0 + s.getD (l.length / 2) 0) / 2

/-- The variance of the first coordinates is at least 1. -/
def Spread (pts : List (ℝ × ℝ)) : Prop :=
  (pts.length : ℝ) ≤ (pts.map fun q => (q.1 - (pts.map Prod.fst).sum / pts.length) ^ 2).sum

/-- The measurements on the curved focal surface. -/
noncomputable def curved (pts : List (ℝ × ℝ)) : List (ℝ × ℝ) := pts.map fun q => xy2uv q.1 q.2

/-- `xy` is the centre for the points `pts`: of the circle fitted on the curved surface for a positioner, the median otherwise. -/
def Centre (opt : List (ℝ × ℝ) → ℝ × ℝ → ℝ × ℝ) (p : ℤ) (pts : List (ℝ × ℝ)) (xy : ℝ × ℝ) : Prop :=
  pts ≠ [] ∧
  if p = 0 then Spread pts ∧ ∃ c r, fitCircle opt (curved pts) = .ok (c, r) ∧ xy = uv2xy c.1 c.2
  else Middle (pts.map Prod.fst) xy.1 ∧ Middle (pts.map Prod.snd) xy.2

/-! ### Lemmas: gathering -/

theorem fold_get (step : Acc → ℤ → Acc) (k : ℤ) (h : Option (List (ℝ × ℝ) × (ℝ × ℝ)) → Option (List (ℝ × ℝ) × (ℝ × ℝ)))
    (hs : ∀ d a, (step d a).get? k = if a = k then h (d.get? k) else d.get? k) (ks : List ℤ) :
    ∀ d, (ks.foldl step d).get? k = h^[ks.count k] (d.get? k) := by
  induction ks with
  | nil => intro d; rfl
  | cons a t ih =>
    intro d
    rw [List.foldl_cons, ih, hs, List.count_cons]
    by_cases e : a = k
    · rw [if_pos e, if_pos (by simpa using e), Function.iterate_succ_apply]
    · rw [if_neg e, if_neg (by simpa using e), Nat.add_zero]

section
variable {l p : ℤ} (hl : 0 < l) (hp : 0 ≤ p) (hp' : p ≤ 9)
include hl hp hp'

theorem key_iff {t : List Row} (hd : ∀ r ∈ t, 0 ≤ r.pin ∧ r.pin ≤ 9) {r : Row} (hr : r ∈ t) :
    key r = l * 10 + p ↔ r.loc = l ∧ r.pin = p := by
  have := hd r hr
  unfold key
  constructor
  · intro h; constructor <;> omega
  · rintro ⟨rfl, rfl⟩; rfl

theorem rowsOf_eq {t : List Row} (hd : ∀ r ∈ t, 0 ≤ r.pin ∧ r.pin ≤ 9) : rowsOf t (l * 10 + p) = About l p t := by
  unfold rowsOf About
  apply List.filter_congr
  intro r hr
  exact decide_eq_decide.2 (key_iff hl hp hp' hd hr)

theorem count_eq {t : List Row} (hd : ∀ r ∈ t, 0 ≤ r.pin ∧ r.pin ≤ 9) :
    (selected t).count (l * 10 + p) = (About l p t).length := by
  unfold selected About
  rw [List.count, List.countP_map, List.countP_filter, List.countP_eq_length_filter]
  congr 1
  apply List.filter_congr
  intro r hr
  have := key_iff hl hp hp' hd hr
  simp only [Function.comp, Bool.decide_and]
  by_cases h : key r = l * 10 + p
  · obtain ⟨h1, h2⟩ := this.1 h
    simp [h, h1, h2, hl]
  · have h2 : ¬ (r.loc = l ∧ r.pin = p) := fun e => h (this.2 e)
    have h3 : (key r == l * 10 + p) = false := by simpa using h
    rw [h3]
    simp only [Bool.false_and]
    rw [← Bool.decide_and, eq_comm, decide_eq_false_iff_not]
    exact h2

theorem firstExp_eq {t : List Row} (hd : ∀ r ∈ t, 0 ≤ r.pin ∧ r.pin ≤ 9) {r : Row} (hr : (About l p t).head? = some r) :
    firstExp t (l * 10 + p) = r.exp := by
  unfold firstExp
  rw [rowsOf_eq hl hp hp' hd]
  cases h : About l p t with
  | nil => rw [h] at hr; cases hr
  | cons a s => rw [h] at hr; injection hr with hr; rw [← hr]

theorem start_get {t : List Row} (hd : ∀ r ∈ t, 0 ≤ r.pin ∧ r.pin ≤ 9) :
    (start t []).get? (l * 10 + p) = (About l p t).head?.map fun r => ([], r.exp) := by
  unfold start
  rw [fold_get _ (l * 10 + p) (fun _ => some ([], firstExp t (l * 10 + p))) ?_, count_eq hl hp hp' hd]
  · cases h : About l p t with
    | nil => rfl
    | cons a s =>
      rw [List.length_cons, Function.iterate_succ_apply', List.head?_cons, Option.map_some,
        firstExp_eq hl hp hp' hd (r := a) (by rw [h]; rfl)]
  · intro d a
    rw [Dict.get?_set]
    split_ifs with h
    · rw [h]
    · rfl

/-- What one more file does to what is known about one pinhole. -/
def more (o : Option (List (ℝ × ℝ) × (ℝ × ℝ))) (r : Option Row) : Option (List (ℝ × ℝ) × (ℝ × ℝ)) :=
  match r with
  | none => o
  | some r =>
    match o with
    | some (m, e) => some (m ++ [r.meas], e)
    | none => some ([r.meas], r.exp)

theorem addFile_get {t : List Row} (hd : ∀ r ∈ t, 0 ≤ r.pin ∧ r.pin ≤ 9) (d : Acc) :
    (addFile d t).get? (l * 10 + p) = more (d.get? (l * 10 + p)) (only l p t) := by
  unfold addFile
  rw [fold_get _ (l * 10 + p) (fun o => more o (only l p t)) ?_, count_eq hl hp hp' hd]
  · unfold only
    cases h : About l p t with
    | nil => rfl
    | cons a s =>
      cases s with
      | nil => rfl
      | cons b s =>
        have : (fun o : Option (List (ℝ × ℝ) × (ℝ × ℝ)) => more o none) = id := rfl
        dsimp only
        rw [this, Function.iterate_id]
        rfl
  · intro d a
    by_cases h : a = l * 10 + p
    · subst h
      rw [if_pos rfl]
      unfold addOne only
      have hf := fun r => firstExp_eq hl hp hp' hd (r := r)
      rw [rowsOf_eq hl hp hp' hd]
      cases h : About l p t with
      | nil => rfl
      | cons a s =>
        rw [h] at hf
        cases s with
        | nil =>
          dsimp only
          cases h2 : d.get? (l * 10 + p) with
          | none => dsimp only; rw [Dict.get?_set_self, hf a rfl]; rfl
          | some v => dsimp only; rw [Dict.get?_set_self]; rfl
        | cons b s => rfl
    · rw [if_neg h]
      unfold addOne
      split
      · split
        · rw [Dict.get?_set_ne _ _ h]
        · rw [Dict.get?_set_ne _ _ h]
      · rfl

theorem rest_get (rest : List (List Row)) (hd : Digits rest) : ∀ d : Acc,
    (rest.foldl addFile d).get? (l * 10 + p) =
      match d.get? (l * 10 + p) with
      | some (m, e) => some (m ++ seen rest l p, e)
      | none => (rest.findSome? (only l p)).map fun r => (seen rest l p, r.exp) := by
  induction rest with
  | nil => intro d; cases h : d.get? (l * 10 + p) <;> simp [seen, h]
  | cons t rest ih =>
    intro d
    have hd' : Digits rest := fun t h => hd t (List.mem_cons_of_mem _ h)
    rw [List.foldl_cons, ih hd', addFile_get hl hp hp' (hd t (by simp))]
    cases h : only l p t with
    | none =>
      cases h2 : d.get? (l * 10 + p) <;> simp [more, seen, h]
    | some r =>
      cases h2 : d.get? (l * 10 + p) <;> simp [more, seen, h]

theorem collect_get (files : List (List Row)) (hd : Digits files) :
    (collect files).get? (l * 10 + p) = (expected files l p).map fun e => (seen files l p, e) := by
  cases files with
  | nil => rfl
  | cons t rest =>
    have hd' : Digits rest := fun t h => hd t (List.mem_cons_of_mem _ h)
    unfold collect expected
    rw [rest_get hl hp hp' rest hd', addFile_get hl hp hp' (hd t (by simp)), start_get hl hp hp' (hd t (by simp))]
    unfold seen only
    cases h : About l p t with
    | nil =>
      simp [more, h]
      congr 1
      funext t
      simp only [Function.comp, Option.map_map, Function.comp_def]
    | cons a s =>
      cases s with
      | nil => simp [more, h]
      | cons b s => simp [more, h]

end

/-- Keys of the dictionaries are those of rows with a positive location. -/
def KeyOf (files : List (List Row)) (k : ℤ) : Prop := ∃ t ∈ files, ∃ r ∈ t, 0 < r.loc ∧ k = key r

theorem fold_inv {α β : Type} (P : β → Prop) (f : β → α → β) (l : List α) : ∀ b, P b → (∀ b, ∀ a ∈ l, P b → P (f b a)) →
    P (l.foldl f b) := by
  induction l with
  | nil => intro b h _; exact h
  | cons a t ih =>
    intro b h hs
    exact ih _ (hs b a (by simp) h) fun b a ha => hs b a (List.mem_cons_of_mem _ ha)

def Inv (files : List (List Row)) (d : Acc) : Prop := (Dict.keys d).Nodup ∧ ∀ k ∈ Dict.keys d, KeyOf files k

theorem inv_set {files : List (List Row)} {d : Acc} (h : Inv files d) {k : ℤ} (hk : KeyOf files k) (v) : Inv files (d.set k v) := by
  refine ⟨Dict.nodup_keys_set _ _ _ h.1, fun k' hk' => ?_⟩
  rcases (Dict.mem_keys_set _ _ _ _).1 hk' with rfl | h'
  · exact hk
  · exact h.2 _ h'

theorem selected_key {files : List (List Row)} {t : List Row} (ht : t ∈ files) {k : ℤ} (hk : k ∈ selected t) : KeyOf files k := by
  unfold selected at hk
  obtain ⟨r, hr, rfl⟩ := List.mem_map.1 hk
  rw [List.mem_filter, decide_eq_true_eq] at hr
  exact ⟨t, ht, r, hr.1, hr.2, rfl⟩

theorem inv_addFile {files : List (List Row)} {t : List Row} (ht : t ∈ files) {d : Acc} (h : Inv files d) : Inv files (addFile d t) := by
  refine fold_inv (Inv files) _ _ _ h fun d k hk hd => ?_
  unfold addOne
  split
  · split
    · exact inv_set hd (selected_key ht hk) _
    · exact inv_set hd (selected_key ht hk) _
  · exact hd

theorem collect_inv (files : List (List Row)) : Inv files (collect files) := by
  cases files with
  | nil => exact ⟨List.nodup_nil, fun k h => by cases h⟩
  | cons t rest =>
    unfold collect
    refine fold_inv (Inv (t :: rest)) _ _ _ (inv_addFile (by simp) ?_) fun d t' ht' hd => inv_addFile (List.mem_cons_of_mem _ ht') hd
    exact fold_inv (Inv (t :: rest)) _ _ _ ⟨List.nodup_nil, fun k h => by cases h⟩ fun d k hk hd => inv_set hd (selected_key (by simp) hk) _

theorem mem_get {d : Acc} (hn : (Dict.keys d).Nodup) (k : ℤ) (v) : (k, v) ∈ d ↔ d.get? k = some v := by
  induction d with
  | nil => simp [Dict.get?]
  | cons a t ih =>
    obtain ⟨k', v'⟩ := a
    simp only [Dict.keys, List.map_cons, List.nodup_cons] at hn
    by_cases h : k' = k
    · subst h
      simp only [List.mem_cons, Dict.get?, if_true, Prod.mk.injEq, true_and, Option.some.injEq]
      constructor
      · rintro (h | h)
        · exact h.symm
        · exact absurd (List.mem_map_of_mem (f := Prod.fst) h) hn.1
      · intro h; exact Or.inl h.symm
    · simp only [List.mem_cons, Dict.get?, if_neg h, Prod.mk.injEq]
      rw [← ih hn.2]
      constructor
      · rintro (⟨h', -⟩ | h')
        · exact absurd h'.symm h
        · exact h'
      · exact Or.inr

/-! ### Lemmas: one location -/

theorem middle_iff (l : List ℝ) (m : ℝ) : Middle l m ↔ m = Model.MatchPositioners.median l := by
  constructor
  · rintro ⟨s, h1, h2, h3⟩
    have : s = pySort id l :=
      List.Perm.eq_of_pairwise (fun a b _ _ => le_antisymm) h2 (by simpa using Lemmas.sorted_pySort (id : ℝ → ℝ) l)
        (h1.trans (Lemmas.perm_pySort (id : ℝ → ℝ) l).symm)
    rw [h3, this]
    rfl
  · rintro rfl
    exact ⟨pySort id l, Lemmas.perm_pySort _ _, by simpa using Lemmas.sorted_pySort (id : ℝ → ℝ) l, rfl⟩

theorem std_lt (pts : List (ℝ × ℝ)) (hne : pts ≠ []) : std (pts.map Prod.fst) < 1 ↔ ¬ Spread pts := by
  have hn : (0 : ℝ) < pts.length := by exact_mod_cast List.length_pos_iff.2 hne
  unfold std Spread
  rw [Real.sqrt_lt' one_pos, not_le, meanL, meanL, List.map_map, List.length_map, List.length_map, div_lt_iff₀ hn]
  norm_num
  rfl

theorem fit_errors (opt : List (ℝ × ℝ) → ℝ × ℝ → ℝ × ℝ) {pts : List (ℝ × ℝ)} (hne : pts ≠ []) :
    fitCircle opt pts = .error .valueError ∨ ∃ c r, fitCircle opt pts = .ok (c, r) ∧ 1 ≤ r := by
  obtain ⟨f, hf⟩ : ∃ f, fastFit false pts = .ok f := by
    unfold fastFit
    rw [if_neg (by simpa using hne)]
    exact ⟨_, rfl⟩
  have e : fitCircle opt pts = (fastFit false pts >>= fun f => if f.2 < 1 ∨ f.2 > 5 then .error .valueError else
      if meanL (Model.Circles.radii pts (opt pts f.1)) < 1 ∨ meanL (Model.Circles.radii pts (opt pts f.1)) > 5 then .error .valueError
      else .ok (opt pts f.1, meanL (Model.Circles.radii pts (opt pts f.1)))) := rfl
  rw [e, hf]
  change (if f.2 < 1 ∨ f.2 > 5 then Except.error PyErr.valueError else _) = _ ∨ ∃ c r, (if f.2 < 1 ∨ f.2 > 5 then _ else _) = _ ∧ _
  by_cases h1 : f.2 < 1 ∨ f.2 > 5
  · rw [if_pos h1]; exact Or.inl rfl
  rw [if_neg h1]
  by_cases h2 : meanL (Model.Circles.radii pts (opt pts f.1)) < 1 ∨ meanL (Model.Circles.radii pts (opt pts f.1)) > 5
  · rw [if_pos h2]; exact Or.inl rfl
  rw [if_neg h2]
  push Not at h2
  exact Or.inr ⟨_, _, rfl, h2.1⟩

theorem centre_iff (opt : List (ℝ × ℝ) → ℝ × ℝ → ℝ × ℝ) (p : ℤ) (meas : List (ℝ × ℝ)) (xy : ℝ × ℝ) :
    centre opt p meas = .ok (some xy) ↔ 6 ≤ meas.length ∧ Centre opt p (meas.filter fun q => q.1 ≠ 0) xy := by
  unfold centre
  by_cases h6 : meas.length < 6
  · rw [if_pos h6]
    constructor
    · intro h; cases h
    · rintro ⟨h, -⟩; omega
  rw [if_neg h6]
  dsimp only
  have h6' : 6 ≤ meas.length := by omega
  rw [and_iff_right h6']
  generalize (meas.filter fun q => q.1 ≠ 0) = pts
  unfold Centre positioner pinhole
  by_cases hp : p = 0
  · rw [if_pos hp, if_pos hp]
    by_cases h0 : pts = []
    · rw [if_pos h0]
      constructor
      · intro h; cases h
      · rintro ⟨h, -⟩; exact absurd h0 h
    rw [if_neg h0, and_iff_right h0]
    by_cases hs : Spread pts
    · rw [if_neg (by rw [std_lt _ h0]; simpa using hs), and_iff_right hs]
      have hc : curved pts ≠ [] := by unfold curved; simpa using h0
      change judge (fitCircle opt (curved pts)) = _ ↔ _
      rcases fit_errors opt hc with h | ⟨c, r, h, hr⟩
      · rw [h]
        constructor
        · intro h; cases h
        · rintro ⟨c, r, h, -⟩; cases h
      · rw [h]
        dsimp only [judge]
        rw [if_neg (by norm_num; linarith)]
        constructor
        · intro h; exact ⟨c, r, rfl, (Option.some.inj (Except.ok.inj h)).symm⟩
        · rintro ⟨c', r', h, rfl⟩
          obtain ⟨rfl, rfl⟩ := Prod.mk.inj (Except.ok.inj h)
          rfl
    · rw [if_pos ((std_lt _ h0).2 hs)]
      constructor
      · intro h; cases h
      · rintro ⟨h, -⟩; exact absurd h hs
  · rw [if_neg hp, if_neg hp]
    by_cases h0 : pts = []
    · rw [if_pos h0]
      constructor
      · intro h; cases h
      · rintro ⟨h, -⟩; exact absurd h0 h
    rw [if_neg h0, and_iff_right h0, middle_iff, middle_iff]
    constructor
    · intro h
      rw [← Option.some.inj (Except.ok.inj h)]
      exact ⟨rfl, rfl⟩
    · rintro ⟨h1, h2⟩
      rw [← h1, ← h2]

theorem centre_error (opt : List (ℝ × ℝ) → ℝ × ℝ → ℝ × ℝ) (p : ℤ) (meas : List (ℝ × ℝ)) (e : PyErr) :
    centre opt p meas = .error e ↔ e = .typeError ∧ p = 0 ∧ 6 ≤ meas.length ∧ ∀ q ∈ meas, q.1 = 0 := by
  unfold centre
  by_cases h6 : meas.length < 6
  · rw [if_pos h6]
    constructor
    · intro h; cases h
    · rintro ⟨-, -, h, -⟩; omega
  rw [if_neg h6]
  dsimp only
  by_cases hp : p = 0
  · rw [if_pos hp]
    have he : (meas.filter fun q => q.1 ≠ 0) = [] ↔ ∀ q ∈ meas, q.1 = 0 := by
      rw [List.filter_eq_nil_iff]; simp
    rw [← he]
    generalize (meas.filter fun q => q.1 ≠ 0) = pts
    unfold positioner
    by_cases h0 : pts = []
    · rw [if_pos h0]
      constructor
      · intro h; injection h with h; exact ⟨h.symm, hp, by omega, h0⟩
      · rintro ⟨rfl, -⟩; rfl
    · rw [if_neg h0]
      constructor
      · intro h
        exfalso
        split_ifs at h
        have hc : curved pts ≠ [] := by unfold curved; simpa using h0
        change judge (fitCircle opt (curved pts)) = _ at h
        rcases fit_errors opt hc with h' | ⟨c, r, h', hr⟩
        · rw [h'] at h; cases h
        · rw [h'] at h
          dsimp only [judge] at h
          split_ifs at h
      · rintro ⟨-, -, -, h⟩; exact absurd h h0
  · rw [if_neg hp]
    constructor
    · intro h; cases h
    · rintro ⟨-, h, -⟩; exact absurd h hp

theorem outRow_iff (opt : List (ℝ × ℝ) → ℝ × ℝ → ℝ × ℝ) (k : ℤ) (m : List (ℝ × ℝ)) (e : ℝ × ℝ) (o : Out) :
    outRow opt (k, (m, e)) = .ok (some o) ↔
      o.loc = k / 10 ∧ o.pin = k % 10 ∧ o.metro = e ∧ centre opt (k % 10) m = .ok (some o.xy) ∧ e.1 ≠ 0 ∧ dist2 o.xy e < 3 := by
  unfold outRow
  dsimp only
  cases hc : centre opt (k % 10) m with
  | error e' =>
    constructor
    · intro h; cases h
    · rintro ⟨-, -, -, h, -⟩; cases h
  | ok c =>
    cases c with
    | none =>
      constructor
      · intro h; cases h
      · rintro ⟨-, -, -, h, -⟩; cases h
    | some c =>
      change Except.ok (if e.1 ≠ 0 ∧ dist2 c e < 3 then _ else _) = _ ↔ _
      constructor
      · intro h
        by_cases h1 : e.1 ≠ 0 ∧ dist2 c e < 3
        swap
        · rw [if_neg h1] at h; cases h
        rw [if_pos h1] at h
        have := Option.some.inj (Except.ok.inj h)
        subst this
        exact ⟨rfl, rfl, rfl, rfl, h1.1, h1.2⟩
      · rintro ⟨h1, h2, h3, h4, h5, h6⟩
        have := Option.some.inj (Except.ok.inj h4)
        subst this
        rw [if_pos ⟨h5, h6⟩]
        obtain ⟨a, b, c, d⟩ := o
        simp only at h1 h2 h3
        subst h1 h2 h3
        rfl

/-! ### Theorems -/

/-- **C78** The output of the script, whatever the files: no pinhole has two rows, and a row says that pinhole `pin` of location `loc` has
centre `xy` if and only if the files mention the pinhole, at least six of them mention it exactly once, the expected position is that
of the first mention, is less than 3 mm away and not on the axis `X = 0`, and `xy` is the centre for the measurements with a non zero
first coordinate: for a positioner the centre of the circle fitted to them on the curved surface if the variance of `X` is at least
1 mm², for a fiducial the median in each coordinate. -/
theorem C78_rows (opt : List (ℝ × ℝ) → ℝ × ℝ → ℝ × ℝ) (files : List (List Row)) (hd : Digits files) (out : List Out)
    (h : fitCircles opt files = .ok out) :
    (out.map fun o => (o.loc, o.pin)).Nodup ∧
    ∀ o : Out, o ∈ out ↔ 0 < o.loc ∧ 0 ≤ o.pin ∧ o.pin ≤ 9 ∧ expected files o.loc o.pin = some o.metro ∧
      6 ≤ (seen files o.loc o.pin).length ∧ o.metro.1 ≠ 0 ∧ dist2 o.xy o.metro < 3 ∧ Centre opt o.pin (good files o.loc o.pin) o.xy := by
  obtain ⟨hn, hk⟩ := collect_inv files
  have hget := fun l p h1 h2 h3 => collect_get (l := l) (p := p) h1 h2 h3 files hd
  have hmem := mem_get hn
  unfold fitCircles at h
  cases hm : (collect files).mapM (outRow opt) with
  | error e => rw [hm] at h; cases h
  | ok rows =>
    rw [hm] at h
    change Except.ok (rows.filterMap id) = _ at h
    injection h with h
    subst h
    rw [Gpm.mapM_iff] at hm
    have key : ∀ o, o ∈ rows.filterMap id ↔ ∃ k m, (k, m) ∈ collect files ∧ outRow opt (k, m) = .ok (some o) := by
      intro o
      rw [List.mem_filterMap]
      constructor
      · rintro ⟨a, ha, e⟩
        simp only [id] at e
        subst e
        obtain ⟨i, hi, he⟩ := List.mem_iff_getElem.1 ha
        have hl := hm.length_eq
        refine ⟨((collect files)[i]'(by omega)).1, ((collect files)[i]'(by omega)).2, List.getElem_mem _, ?_⟩
        have := (List.forall₂_iff_get.1 hm).2 i (by omega) hi
        simpa [he] using this
      · rintro ⟨k, m, h1, h2⟩
        obtain ⟨i, hi, he⟩ := List.mem_iff_getElem.1 h1
        have hl := hm.length_eq
        have := (List.forall₂_iff_get.1 hm).2 i hi (by omega)
        refine ⟨some o, ?_, rfl⟩
        rw [List.mem_iff_getElem]
        refine ⟨i, by omega, ?_⟩
        simp only [List.get_eq_getElem, he] at this
        rw [h2] at this
        exact (Except.ok.inj this).symm
    constructor
    · clear key hmem hget hk
      revert hm hn
      generalize collect files = d
      intro hn hm
      have hsub : ∀ (d : Acc) (rows : List (Option Out)), List.Forall₂ (fun a b => outRow opt a = .ok b) d rows →
          ((rows.filterMap id).map fun o => o.loc * 10 + o.pin).Sublist (Dict.keys d) := by
        intro d rows hm
        induction hm with
        | nil => exact List.Sublist.refl _
        | @cons a b d rows h1 _ ih =>
          cases b with
          | none =>
            exact ih.cons _
          | some o =>
            obtain ⟨h2, h3, -⟩ := (outRow_iff opt a.1 a.2.1 a.2.2 o).1 h1
            have e : o.loc * 10 + o.pin = a.1 := by rw [h2, h3]; omega
            simp only [List.filterMap_cons, id, List.map_cons, e, Dict.keys]
            exact ih.cons_cons _
      have h2 := (hsub d rows hm).nodup hn
      apply List.Nodup.of_map (fun q : ℤ × ℤ => q.1 * 10 + q.2)
      rw [List.map_map]
      exact h2
    · intro o
      rw [key]
      constructor
      · rintro ⟨k, ⟨m, e⟩, h1, h2⟩
        obtain ⟨t, ht, r, hr, hl, rfl⟩ := hk k ((Dict.mem_keys _ _).2 ⟨_, (hmem _ _).1 h1⟩)
        obtain ⟨h3, h4, h5, h6, h7, h8⟩ := (outRow_iff opt _ _ _ _).1 h2
        have hb := hd t ht r hr
        have hloc : o.loc = r.loc := by rw [h3]; unfold Model.FitCircles.key; omega
        have hpin : o.pin = r.pin := by rw [h4]; unfold Model.FitCircles.key; omega
        have hg := hget r.loc r.pin hl hb.1 hb.2
        have h9 := (hmem _ _).1 h1
        unfold Model.FitCircles.key at h9
        rw [hg] at h9
        obtain ⟨e', he', h10⟩ := Option.map_eq_some_iff.1 h9
        obtain ⟨rfl, rfl⟩ := Prod.mk.inj h10
        rw [← h4, hpin] at h6
        obtain ⟨h11, h12⟩ := (centre_iff _ _ _ _).1 h6
        rw [hloc, hpin, h5]
        exact ⟨hl, hb.1, hb.2, he', h11, h7, h8, h12⟩
      · rintro ⟨h1, h2, h3, h4, h5, h6, h7, h8⟩
        refine ⟨o.loc * 10 + o.pin, (seen files o.loc o.pin, o.metro), ?_, ?_⟩
        · rw [hmem, hget _ _ h1 h2 h3, h4]; rfl
        · rw [outRow_iff]
          have e1 : (o.loc * 10 + o.pin) / 10 = o.loc := by omega
          have e2 : (o.loc * 10 + o.pin) % 10 = o.pin := by omega
          rw [e1, e2]
          exact ⟨rfl, rfl, rfl, (centre_iff _ _ _ _).2 ⟨h5, h8⟩, h6, h7⟩

/-- **C78** (finding) When the script ends with an error: exactly when some positioner has at least six measurements, all of them with first
coordinate 0. The error is a `TypeError` of the least squares routine, which the script does not catch, and nothing is written. -/
theorem C78_crash (opt : List (ℝ × ℝ) → ℝ × ℝ → ℝ × ℝ) (files : List (List Row)) (hd : Digits files) (e : PyErr) :
    fitCircles opt files = .error e ↔ e = .typeError ∧ ∃ l, 0 < l ∧ 6 ≤ (seen files l 0).length ∧ ∀ q ∈ seen files l 0, q.1 = 0 := by
  obtain ⟨hn, hk⟩ := collect_inv files
  have hget := fun l p h1 h2 h3 => collect_get (l := l) (p := p) h1 h2 h3 files hd
  have hmem := mem_get hn
  have hrow : ∀ a e', outRow opt a = .error e' ↔ centre opt (a.1 % 10) a.2.1 = .error e' := by
    intro a e'
    unfold outRow
    cases centre opt (a.1 % 10) a.2.1 with
    | error e'' =>
      change Except.error e'' = _ ↔ _
      constructor <;> (intro h; injection h with h; rw [h])
    | ok c => constructor <;> (intro h; cases h)
  have hE := Gpm.mapM_error (outRow opt) .typeError (fun a e' h => ((centre_error _ _ _ _).1 ((hrow a e').1 h)).1) (collect files)
  have hT : (∃ a ∈ collect files, outRow opt a = .error .typeError) ↔
      ∃ l, 0 < l ∧ 6 ≤ (seen files l 0).length ∧ ∀ q ∈ seen files l 0, q.1 = 0 := by
    constructor
    · rintro ⟨⟨k, m, e⟩, h1, h2⟩
      obtain ⟨t, ht, r, hr, hl, rfl⟩ := hk k ((Dict.mem_keys _ _).2 ⟨_, (hmem _ _).1 h1⟩)
      have hb := hd t ht r hr
      obtain ⟨-, h3, h4, h5⟩ := (centre_error _ _ _ _).1 ((hrow _ _).1 h2)
      have hpin : r.pin = 0 := by simp only [key] at h3; omega
      have h9 := (hmem _ _).1 h1
      unfold key at h9
      rw [hget r.loc r.pin hl hb.1 hb.2] at h9
      obtain ⟨e', he', h10⟩ := Option.map_eq_some_iff.1 h9
      obtain ⟨rfl, rfl⟩ := Prod.mk.inj h10
      rw [hpin] at h4 h5
      exact ⟨r.loc, hl, h4, h5⟩
    · rintro ⟨l, hl, h4, h5⟩
      have hex : ∃ e', expected files l 0 = some e' := by
        cases files with
        | nil => simp [seen] at h4
        | cons t rest =>
          unfold expected
          dsimp only
          cases ha : (About l 0 t).head? with
          | some r => exact ⟨_, rfl⟩
          | none =>
            cases hb : rest.findSome? (only l 0) with
            | some r => exact ⟨_, rfl⟩
            | none =>
              exfalso
              rw [List.findSome?_eq_none_iff] at hb
              have : seen (t :: rest) l 0 = [] := by
                unfold seen
                rw [List.filterMap_eq_nil_iff]
                intro t' ht'
                rcases List.mem_cons.1 ht' with rfl | h'
                · unfold only
                  rw [List.head?_eq_none_iff.1 ha]
                  rfl
                · rw [hb _ h']; rfl
              rw [this] at h4
              simp at h4
      obtain ⟨e', he'⟩ := hex
      refine ⟨(l * 10 + 0, (seen files l 0, e')), ?_, ?_⟩
      · rw [hmem, hget l 0 hl le_rfl (by norm_num), he']; rfl
      · rw [hrow, centre_error]
        exact ⟨rfl, by omega, h4, h5⟩
  unfold fitCircles
  cases hm : (collect files).mapM (outRow opt) with
  | ok rows =>
    constructor
    · intro h; cases h
    · rintro ⟨-, h⟩
      rw [hE.2 (hT.2 h)] at hm
      cases hm
  | error e' =>
    have he' : e' = .typeError := by
      have : ∀ (l : List (ℤ × (List (ℝ × ℝ) × (ℝ × ℝ)))), l.mapM (outRow opt) = .error e' → e' = .typeError := by
        intro l
        induction l with
        | nil => intro h; rw [List.mapM_nil] at h; cases h
        | cons a t ih =>
          intro h
          rw [List.mapM_cons] at h
          cases ha : outRow opt a with
          | error e'' =>
            rw [ha] at h
            injection h with h
            subst h
            exact ((centre_error _ _ _ _).1 ((hrow _ _).1 ha)).1
          | ok b =>
            rw [ha] at h
            cases ht : t.mapM (outRow opt) with
            | error e'' =>
              rw [ht] at h
              injection h with h
              subst h
              exact ih ht
            | ok c => rw [ht] at h; cases h
      exact this _ hm
    subst he'
    change Except.error _ = _ ↔ _
    constructor
    · intro h
      injection h with h
      exact ⟨h.symm, hT.1 (hE.1 hm)⟩
    · rintro ⟨rfl, -⟩; rfl

/-! ### Lemmas: the curved surface -/

section
open Verif.Model Verif.Model.Trig Verif.Model.Xy2qs Verif.Lemmas.Trig Verif.Lemmas.Xy2qs Verif.Lemmas.Poly

theorem uv_mul (x y : ℝ) : hypot x y * (xy2uv x y).1 = r2s (hypot x y) * x ∧ hypot x y * (xy2uv x y).2 = r2s (hypot x y) * y := by
  have e : xy2uv x y = (r2s (hypot x y) * cosd (arctan2d y x), r2s (hypot x y) * sind (arctan2d y x)) := rfl
  have h1 := cosd_arctan2d x y
  have h2 := sind_arctan2d x y
  rw [e]
  dsimp only
  constructor
  · linear_combination r2s (hypot x y) * h1
  · linear_combination r2s (hypot x y) * h2

theorem hypot_uv {x y : ℝ} (h : hypot x y ≤ 450) : hypot (xy2uv x y).1 (xy2uv x y).2 = r2s (hypot x y) := by
  have e : xy2uv x y = (r2s (hypot x y) * cosd (arctan2d y x), r2s (hypot x y) * sind (arctan2d y x)) := rfl
  rw [e]
  exact hypot_polar (r2s_pos (hypot_nonneg _ _) h).le _

theorem uv_inj {a b : ℝ × ℝ} (ha : radius a ≤ 450) (hb : radius b ≤ 450) (h : xy2uv a.1 a.2 = xy2uv b.1 b.2) : a = b := by
  have ha' : hypot a.1 a.2 ≤ 450 := ha
  have hb' : hypot b.1 b.2 ≤ 450 := hb
  have h1 := hypot_uv ha'
  have h2 := hypot_uv hb'
  have h3 := uv_mul a.1 a.2
  have h4 := uv_mul b.1 b.2
  have n1 := hypot_nonneg a.1 a.2
  have n2 := hypot_nonneg b.1 b.2
  have p1 := r2s_pos n1 ha'
  rw [h] at h1 h3
  have e : hypot a.1 a.2 = hypot b.1 b.2 := by
    rcases le_total (hypot a.1 a.2) (hypot b.1 b.2) with hle | hle
    · have := (r2s_slope _ _ n1 hle hb').1
      linarith
    · have := (r2s_slope _ _ n2 hle ha').1
      linarith
  rw [e] at h3 p1
  refine Prod.ext ?_ ?_
  · exact mul_left_cancel₀ p1.ne' (h3.1.symm.trans h4.1)
  · exact mul_left_cancel₀ p1.ne' (h3.2.symm.trans h4.2)

theorem uv_surj {u v : ℝ} (h1 : 1 ≤ hypot u v) (h2 : hypot u v ≤ 440) : ∃ x y, xy2uv x y = (u, v) ∧ 0 < hypot x y ∧ hypot x y ≤ 450 := by
  have hc : ContinuousOn r2s (Set.Icc 0 450) := by
    have : r2s = fun r => 400 * ev P (r / 400) := funext r2s_eq
    rw [this]
    intro r _
    apply ContinuousAt.continuousWithinAt
    have h3 : ContinuousAt (ev P) (r / 400) := (ev_deriv P _).continuousAt
    have h4 : ContinuousAt (fun r : ℝ => r / 400) r := by fun_prop
    exact continuousAt_const.mul (ContinuousAt.comp (f := fun r : ℝ => r / 400) h3 h4)
  have h450 := (r2s_slope 0 450 le_rfl (by norm_num) le_rfl).1
  have h0 := r2s_zero
  obtain ⟨r, ⟨hr0, hr1⟩, hr⟩ := intermediate_value_Icc (by norm_num : (0 : ℝ) ≤ 450) hc
    (show hypot u v ∈ Set.Icc (r2s 0) (r2s 450) from ⟨by rw [h0]; linarith, by rw [h0] at h450; linarith⟩)
  have hrp : 0 < r := by
    rcases hr0.lt_or_eq with h | h
    · exact h
    · rw [← h, h0] at hr; linarith
  have e1 := hypot_polar hrp.le (arctan2d v u)
  have e2 := arctan2d_polar hrp (arctan2d v u)
  refine ⟨r * cosd (arctan2d v u), r * sind (arctan2d v u), ?_, by rw [e1]; exact hrp, by rw [e1]; exact hr1⟩
  have e : ∀ x y, xy2uv x y = (r2s (hypot x y) * cosd (arctan2d y x), r2s (hypot x y) * sind (arctan2d y x)) := fun _ _ => rfl
  rw [e, e1, e2, hr, cosd_same (put360_same _), sind_same (put360_same _), cosd_arctan2d, sind_arctan2d]

theorem uv_back (P : ℝ × ℝ) (hP : radius P ≤ 431) : Spec.dist2 (uv2xy (xy2uv P.1 P.2).1 (xy2uv P.1 P.2).2) P ≤ 5 / 1000 := by
  rw [(C12_uv_flat P.1 P.2 hP).1]
  obtain ⟨a, ρ, -, -, -, -, -, -, -, -, -, h⟩ := C12_qs_round_trip P.1 P.2 hP
  exact h

end

/-- **C78** A positioner on a circle. If the tip moved on a circle of the curved focal surface of radius 1 to 5 mm around a point `P` of the
focal plane, at least six files measured it and at least four of the positions are usable and distinct, spread in `X`, and `P` is near the
expected position, then there is a row for the positioner, with the expected position and within 5 µm of `P`. -/
theorem C78_circle (opt : List (ℝ × ℝ) → ℝ × ℝ → ℝ × ℝ) (ho : Circ.Descends opt) (files : List (List Row)) (hd : Digits files)
    (out : List Out) (h : fitCircles opt files = .ok out) (l : ℤ) (hl : 0 < l) (e : ℝ × ℝ) (he : expected files l 0 = some e)
    (hx : e.1 ≠ 0) (P : ℝ × ℝ) (hP : radius P ≤ 431) (r : ℝ) (hr1 : 1 ≤ r) (hr5 : r ≤ 5) (h6 : 6 ≤ (seen files l 0).length)
    (h4 : 4 ≤ (good files l 0).length) (hn : (good files l 0).Nodup) (hin : ∀ q ∈ good files l 0, radius q ≤ 450)
    (hs : Spread (good files l 0)) (hon : ∀ q ∈ good files l 0, dist2 (xy2uv q.1 q.2) (xy2uv P.1 P.2) = r)
    (hnear : dist2 P e < 2.995) :
    ∃ o ∈ out, o.loc = l ∧ o.pin = 0 ∧ o.metro = e ∧ dist2 o.xy P ≤ 5 / 1000 := by
  have hb := uv_back P hP
  refine ⟨⟨l, 0, e, uv2xy (xy2uv P.1 P.2).1 (xy2uv P.1 P.2).2⟩, ?_, rfl, rfl, rfl, hb⟩
  rw [(C78_rows opt files hd out h).2]
  refine ⟨hl, le_rfl, by norm_num, he, h6, hx, ?_, ?_, ?_⟩
  · have := Int2ptl.dist2_triangle (uv2xy (xy2uv P.1 P.2).1 (xy2uv P.1 P.2).2) P e
    show dist2 _ _ < 3
    dsimp only
    norm_num at hnear
    linarith
  · intro h0; rw [show good files l 0 = [] from h0] at h4; simp at h4
  · rw [if_pos rfl]
    refine ⟨hs, xy2uv P.1 P.2, r, ?_, rfl⟩
    rw [C38_fit_exact opt ho _ (xy2uv P.1 P.2) r (by linarith) (by unfold curved; simpa using h4) ?_ ?_, if_pos ⟨hr1, hr5⟩]
    · unfold curved
      exact hn.map_on fun a ha b hb h => uv_inj (hin a ha) (hin b hb) h
    · unfold curved
      intro p hp
      obtain ⟨q, hq, rfl⟩ := List.mem_map.1 hp
      have := hon q hq
      unfold Circ.On
      unfold dist2 at this
      rw [← this, Real.sq_sqrt (by positivity)]

/-- **C78** A pinhole of a fiducial: if more than half of the usable measurements agree on a position `q` near the expected one, the row
is there and has exactly this position, however wrong the other measurements are. -/
theorem C78_fiducial (opt : List (ℝ × ℝ) → ℝ × ℝ → ℝ × ℝ) (files : List (List Row)) (hd : Digits files) (out : List Out)
    (h : fitCircles opt files = .ok out) (l p : ℤ) (hl : 0 < l) (hp : 1 ≤ p) (hp' : p ≤ 9) (e : ℝ × ℝ)
    (he : expected files l p = some e) (hx : e.1 ≠ 0) (h6 : 6 ≤ (seen files l p).length) (q : ℝ × ℝ)
    (hmaj : (good files l p).length < 2 * (good files l p).count q) (hnear : dist2 q e < 3) :
    (⟨l, p, e, q⟩ : Out) ∈ out := by
  rw [(C78_rows opt files hd out h).2]
  have key : ∀ (f : ℝ × ℝ → ℝ), Middle ((good files l p).map f) (f q) := by
    intro f
    rw [middle_iff]
    have hmed := MatchPos.median_spec ((good files l p).map f)
    generalize Model.MatchPositioners.median ((good files l p).map f) = m at hmed
    obtain ⟨h1, h2⟩ := hmed
    rw [List.length_map, ← List.countP_eq_length_filter, List.countP_map] at h1 h2
    have hc : ∀ g : ℝ × ℝ → Bool, g q = true → (good files l p).count q ≤ (good files l p).countP g := by
      intro g hg
      unfold List.count
      apply List.countP_mono_left
      intro a _ ha
      rw [beq_iff_eq] at ha
      rw [ha]; exact hg
    rcases lt_trichotomy (f q) m with hlt | heq | hgt
    · have := hc ((fun x => decide (x < m)) ∘ f) (by simpa using hlt)
      omega
    · exact heq
    · have := hc ((fun x => decide (m < x)) ∘ f) (by simpa using hgt)
      omega
  refine ⟨hl, by simp only; omega, hp', he, h6, hx, hnear, ?_, ?_⟩
  · intro h0; rw [show good files l p = [] from h0] at hmaj; simp at hmaj
  · rw [if_neg (by simp only; omega)]
    exact ⟨key Prod.fst, key Prod.snd⟩

/-- **C78** (finding) No row is written for a pinhole expected exactly on the axis `X = 0`, whatever was measured: zero stands for
"not fitted" in the script. -/
theorem C78_axis (opt : List (ℝ × ℝ) → ℝ × ℝ → ℝ × ℝ) (files : List (List Row)) (hd : Digits files) (out : List Out)
    (h : fitCircles opt files = .ok out) (l p : ℤ) (y : ℝ) (he : expected files l p = some (0, y)) :
    ∀ o ∈ out, ¬ (o.loc = l ∧ o.pin = p) := by
  rintro o ho ⟨rfl, rfl⟩
  obtain ⟨-, -, -, h1, -, h2, -⟩ := ((C78_rows opt files hd out h).2 o).1 ho
  rw [he] at h1
  injection h1 with h1
  rw [← h1] at h2
  exact h2 rfl

/-- Files with one row each. -/
def series (l p : ℤ) (e : ℝ × ℝ) (m : List (ℝ × ℝ)) : List (List Row) := m.map fun q => [⟨l, p, q, e⟩]

theorem only_series (l p : ℤ) (e q : ℝ × ℝ) : only l p [⟨l, p, q, e⟩] = some ⟨l, p, q, e⟩ := by
  unfold only About
  simp

theorem only_other (l p l' p' : ℤ) (hne : ¬ (l = l' ∧ p = p')) (e q : ℝ × ℝ) : only l' p' [⟨l, p, q, e⟩] = none := by
  unfold only About
  rw [List.filter_cons_of_neg (by simpa using hne)]
  rfl

theorem seen_series (l p : ℤ) (e : ℝ × ℝ) (m : List (ℝ × ℝ)) : seen (series l p e m) l p = m := by
  unfold seen series
  rw [List.filterMap_map]
  have : ((fun t => Option.map Row.meas (only l p t)) ∘ fun q => [(⟨l, p, q, e⟩ : Row)]) = some := by
    funext q
    simp only [Function.comp, only_series, Option.map_some]
  rw [this, List.filterMap_some]

theorem expected_series (l p : ℤ) (e : ℝ × ℝ) {m : List (ℝ × ℝ)} (hm : m ≠ []) : expected (series l p e m) l p = some e := by
  cases m with
  | nil => exact absurd rfl hm
  | cons q m => simp [expected, series, About]

theorem seen_other (l p l' p' : ℤ) (hne : ¬ (l = l' ∧ p = p')) (e : ℝ × ℝ) (m : List (ℝ × ℝ)) : seen (series l p e m) l' p' = [] := by
  unfold seen
  rw [List.filterMap_eq_nil_iff]
  intro t ht
  obtain ⟨q, -, rfl⟩ := List.mem_map.1 ht
  rw [only_other _ _ _ _ hne]
  rfl

theorem digits_series {l p : ℤ} (hp : 0 ≤ p) (hp' : p ≤ 9) (e : ℝ × ℝ) (m : List (ℝ × ℝ)) : Digits (series l p e m) := by
  intro t ht r hr
  obtain ⟨q, -, rfl⟩ := List.mem_map.1 ht
  rw [List.mem_singleton] at hr
  subst hr
  exact ⟨hp, hp'⟩

/-- The script on files with one row each: it does not crash when some measurement is usable. -/
theorem series_ok (opt : List (ℝ × ℝ) → ℝ × ℝ → ℝ × ℝ) {l p : ℤ} (hp : 0 ≤ p) (hp' : p ≤ 9) (e : ℝ × ℝ)
    {m : List (ℝ × ℝ)} (hm : ∃ q ∈ m, q.1 ≠ 0) : ∃ out, fitCircles opt (series l p e m) = .ok out := by
  cases h : fitCircles opt (series l p e m) with
  | ok out => exact ⟨out, rfl⟩
  | error err =>
    exfalso
    obtain ⟨-, l', -, h6, h0⟩ := (C78_crash opt _ (digits_series hp hp' e m) err).1 h
    by_cases hq : l = l' ∧ p = 0
    · obtain ⟨rfl, rfl⟩ := hq
      rw [seen_series] at h0
      obtain ⟨q, hq, hne⟩ := hm
      exact hne (h0 q hq)
    · rw [seen_other _ _ _ _ hq] at h6
      simp at h6

/-- Points on the right hand side of the circle of radius 3 around (-3, 200). -/
noncomputable def arcPt (t : ℝ) : ℝ × ℝ := (-(6 * t ^ 2) / (1 + t ^ 2), 200 + 6 * t / (1 + t ^ 2))

theorem arc_on (t : ℝ) : Circ.On (-3, 200) 3 (arcPt t) := by
  unfold Circ.On arcPt
  have : 1 + t ^ 2 ≠ 0 := by positivity
  field_simp
  ring

theorem arc_inj {a b : ℝ} (h : arcPt a = arcPt b) (ha : |a| < 1) (hb : |b| < 1) : a = b := by
  have h1 : (200 : ℝ) + 6 * a / (1 + a ^ 2) = 200 + 6 * b / (1 + b ^ 2) := congrArg Prod.snd h
  have pa : 1 + a ^ 2 ≠ 0 := by positivity
  have pb : 1 + b ^ 2 ≠ 0 := by positivity
  field_simp at h1
  have h2 : (a - b) * (1 - a * b) = 0 := by linarith
  have h3 : a * b < 1 := by
    rw [abs_lt] at ha hb
    nlinarith
  rcases mul_eq_zero.1 h2 with h4 | h4
  · linarith
  · linarith

section
open Verif.Lemmas.Trig Verif.Lemmas.Xy2qs Verif.Model.Xy2qs

theorem arc_hypot {t : ℝ} (ht : |t| ≤ 1 / 4) : hypot (arcPt t).1 (arcPt t).2 ≤ (arcPt t).2 + 1 / 1000 ∧ (arcPt t).2 ≤ hypot (arcPt t).1 (arcPt t).2 ∧
    198 ≤ (arcPt t).2 ∧ (arcPt t).2 ≤ 202 ∧ |(arcPt t).1| ≤ 6 / 17 := by
  have ht2 : t ^ 2 ≤ 1 / 16 := by
    have := sq_abs t
    have h0 := abs_nonneg t
    nlinarith
  have hp : (0 : ℝ) < 1 + t ^ 2 := by positivity
  have hu : |(arcPt t).1| ≤ 6 / 17 := by
    unfold arcPt
    dsimp only
    rw [neg_div, abs_neg, abs_of_nonneg (by positivity), div_le_div_iff₀ hp (by norm_num)]
    linarith
  have hv : |6 * t / (1 + t ^ 2)| ≤ 2 := by
    rw [abs_div, abs_of_pos hp, div_le_iff₀ hp, abs_mul, abs_of_pos (by norm_num : (0 : ℝ) < 6)]
    nlinarith [sq_nonneg t]
  rw [abs_le] at hv
  have h1 : 198 ≤ (arcPt t).2 := by unfold arcPt; dsimp only; linarith
  have h2 : (arcPt t).2 ≤ 202 := by unfold arcPt; dsimp only; linarith
  have hu2 : (arcPt t).1 ^ 2 ≤ 36 / 289 := by
    have := sq_abs (arcPt t).1
    have h0 := abs_nonneg (arcPt t).1
    nlinarith
  refine ⟨?_, ?_, h1, h2, hu⟩
  · unfold hypot
    rw [Real.sqrt_le_iff]
    constructor
    · linarith
    · nlinarith
  · unfold hypot
    apply Real.le_sqrt_of_sq_le
    nlinarith [sq_nonneg (arcPt t).1]

theorem arc_meas (t : ℝ) (ht : |t| ≤ 1 / 4) : ∃ q : ℝ × ℝ, xy2uv q.1 q.2 = arcPt t ∧ hypot q.1 q.2 ≤ 450 ∧ |q.1| ≤ 2 / 5 ∧ (t ≠ 0 → q.1 ≠ 0) := by
  obtain ⟨h1, h2, h3, h4, h5⟩ := arc_hypot ht
  obtain ⟨x, y, h6, h7, h8⟩ := uv_surj (u := (arcPt t).1) (v := (arcPt t).2) (by linarith) (by linarith)
  have h9 := (uv_mul x y).1
  rw [h6] at h9
  have hs := (r2s_slope 0 (hypot x y) le_rfl h7.le h8).1
  rw [r2s_zero] at hs
  have hpos := r2s_pos h7.le h8
  refine ⟨(x, y), h6, h8, ?_, ?_⟩
  · show |x| ≤ 2 / 5
    have e : r2s (hypot x y) * |x| = hypot x y * |(arcPt t).1| := by
      rw [← abs_of_pos hpos, ← abs_mul, ← h9, abs_mul, abs_of_pos h7]
    have h10 : hypot x y * |(arcPt t).1| ≤ hypot x y * (6 / 17) := by gcongr
    have h11 : r2s (hypot x y) * |x| ≤ r2s (hypot x y) * (2 / 5) := by
      rw [e]; nlinarith
    exact le_of_mul_le_mul_left h11 hpos
  · intro h0 hx
    change x = 0 at hx
    have h9' : hypot x y * (arcPt t).1 = 0 := by rw [h9, hx, mul_zero]
    rcases mul_eq_zero.1 h9' with h | h
    · linarith
    · have hp : (0 : ℝ) < 1 + t ^ 2 := by positivity
      unfold arcPt at h
      rw [div_eq_zero_iff] at h
      rcases h with h | h
      · apply h0
        have : t ^ 2 = 0 := by linarith
        exact pow_eq_zero_iff (two_ne_zero) |>.1 this
      · linarith

/-- The ends of the arc are more than 2 mm apart. -/
theorem arc_far {a b : ℝ × ℝ} (ha : xy2uv a.1 a.2 = arcPt (1 / 4)) (hb : xy2uv b.1 b.2 = arcPt (-(1 / 4))) (ha' : hypot a.1 a.2 ≤ 450)
    (hb' : hypot b.1 b.2 ≤ 450) : 2 ≤ a.2 - b.2 := by
  obtain ⟨a1, a2, a3, a4, -⟩ := arc_hypot (t := 1 / 4) (by norm_num)
  obtain ⟨b1, b2, b3, b4, -⟩ := arc_hypot (t := -(1 / 4)) (by norm_num)
  have ea := hypot_uv ha'
  have eb := hypot_uv hb'
  have ma := (uv_mul a.1 a.2).2
  have mb := (uv_mul b.1 b.2).2
  rw [ha] at ea ma
  rw [hb] at eb mb
  have na := hypot_nonneg a.1 a.2
  have nb := hypot_nonneg b.1 b.2
  have va : (arcPt (1 / 4)).2 = 200 + 24 / 17 := by unfold arcPt; norm_num
  have vb : (arcPt (-(1 / 4))).2 = 200 - 24 / 17 := by unfold arcPt; norm_num
  rw [← ea] at ma
  rw [← eb] at mb
  generalize hypot (arcPt (1 / 4)).1 (arcPt (1 / 4)).2 = sa at *
  generalize hypot (arcPt (-(1 / 4))).1 (arcPt (-(1 / 4))).2 = sb at *
  rw [va] at *
  rw [vb] at *
  generalize hypot a.1 a.2 = ra at *
  generalize hypot b.1 b.2 = rb at *
  have hd : 2.7 ≤ ra - rb := by
    rcases le_total rb ra with h | h
    · have := (r2s_slope rb ra nb h ha').2
      rw [← ea, ← eb] at this
      norm_num
      linarith
    · have := (r2s_slope ra rb na h hb').1
      rw [← ea, ← eb] at this
      norm_num
      linarith
  have hya : ra - 1 / 100 ≤ a.2 := by
    have : sa * (ra - 1 / 100) ≤ sa * a.2 := by rw [← ma]; nlinarith
    exact le_of_mul_le_mul_left this (by linarith)
  have hyb : b.2 ≤ rb := by
    have : sb * b.2 ≤ sb * rb := by rw [← mb]; nlinarith
    exact le_of_mul_le_mul_left this (by linarith)
  norm_num at hd
  linarith

end

theorem not_spread {pts : List (ℝ × ℝ)} (hne : pts ≠ []) (h : ∀ q ∈ pts, |q.1| ≤ 2 / 5) : ¬ Spread pts := by
  have hn : (0 : ℝ) < pts.length := by exact_mod_cast List.length_pos_iff.2 hne
  unfold Spread
  rw [not_le]
  have hm : |(pts.map Prod.fst).sum / pts.length| ≤ 2 / 5 := by
    have : |(pts.map Prod.fst).sum| ≤ pts.length * (2 / 5) := by
      clear hne hn
      induction pts with
      | nil => simp
      | cons a t ih =>
        have h1 := ih fun q hq => h q (List.mem_cons_of_mem _ hq)
        have h2 := h a (by simp)
        have h3 := abs_add_le a.1 (t.map Prod.fst).sum
        simp only [List.map_cons, List.sum_cons, List.length_cons, Nat.cast_add, Nat.cast_one]
        linarith
    rw [abs_div, abs_of_pos hn, div_le_iff₀ hn]
    linarith
  generalize (pts.map Prod.fst).sum / pts.length = c at hm
  have hle : (pts.map fun q => (q.1 - c) ^ 2).sum ≤ pts.length * (16 / 25 : ℝ) := by
    clear hne hn
    induction pts with
    | nil => simp
    | cons a t ih =>
      have h1 := ih fun q hq => h q (List.mem_cons_of_mem _ hq)
      have h2 := h a (by simp)
      have h3 : (a.1 - c) ^ 2 ≤ 16 / 25 := by
        rw [abs_le] at h2 hm
        nlinarith
      simp only [List.map_cons, List.sum_cons, List.length_cons, Nat.cast_add, Nat.cast_one]
      linarith
  linarith

/-- **C78** (finding) Only `X` is looked at to tell whether a positioner moved. There are six measurements of one moving on an arc of a
circle of radius 3 mm, more than 2 mm along `Y`, to which the circle is fitted exactly, and yet no row is written. -/
theorem C78_short_arc : ∃ m : List (ℝ × ℝ), m.length = 6 ∧ (curved m).Nodup ∧ (∀ q ∈ curved m, Circ.On (-3, 200) 3 q) ∧
    (∃ a ∈ m, ∃ b ∈ m, 2 ≤ a.2 - b.2) ∧
    ∀ opt, (Circ.Descends opt → fitCircle opt (curved m) = .ok ((-3, 200), 3)) ∧
      ∀ l : ℤ, 0 < l → ∀ e, fitCircles opt (series l 0 e m) = .ok [] := by
  choose f h1 h2 h3 h4 using fun t : {t : ℝ // |t| ≤ 1 / 4} => arc_meas t.1 t.2
  have hb : ∀ t : ℝ, t ∈ [1 / 4, 1 / 5, 1 / 8, -(1 / 8), -(1 / 5), -(1 / 4)] → |t| ≤ 1 / 4 ∧ t ≠ 0 := by
    simp only [List.mem_cons, List.not_mem_nil, or_false]
    rintro t (rfl | rfl | rfl | rfl | rfl | rfl) <;> (rw [abs_le]; norm_num)
  have hnd : ([1 / 4, 1 / 5, 1 / 8, -(1 / 8), -(1 / 5), -(1 / 4)] : List ℝ).Nodup := by
    simp only [List.nodup_cons, List.mem_cons, List.not_mem_nil, or_false, not_or]
    norm_num
  generalize hts : ([1 / 4, 1 / 5, 1 / 8, -(1 / 8), -(1 / 5), -(1 / 4)] : List ℝ) = ts at hb hnd
  have hlen : ts.length = 6 := by rw [← hts]; rfl
  set m := ts.attach.map fun t => f ⟨t.1, (hb t.1 t.2).1⟩ with hm
  have hcm : curved m = ts.map arcPt := by
    rw [hm]
    unfold curved
    rw [List.map_map]
    conv_rhs => rw [← List.attach_map_subtype_val ts, List.map_map]
    apply List.map_congr_left
    intro t _
    exact h1 _
  have hml : m.length = 6 := by rw [hm]; simpa using hlen
  have hm0 : m ≠ [] := by intro h; rw [h] at hml; simp at hml
  have hx : ∀ q ∈ m, |q.1| ≤ 2 / 5 ∧ q.1 ≠ 0 := by
    intro q hq
    rw [hm] at hq
    obtain ⟨t, -, rfl⟩ := List.mem_map.1 hq
    exact ⟨h3 _, h4 _ (hb t.1 t.2).2⟩
  have hnc : (curved m).Nodup := by
    rw [hcm]
    refine hnd.map_on fun a ha b hb' h => arc_inj h ?_ ?_
    · have := (hb a ha).1; linarith
    · have := (hb b hb').1; linarith
  have honc : ∀ q ∈ curved m, Circ.On (-3, 200) 3 q := by
    rw [hcm]
    intro q hq
    obtain ⟨t, -, rfl⟩ := List.mem_map.1 hq
    exact arc_on t
  refine ⟨m, hml, hnc, honc, ?_, fun opt => ⟨fun ho => ?_, fun l hl e => ?_⟩⟩
  · have ha : (1 / 4 : ℝ) ∈ ts := by rw [← hts]; simp
    have hb' : (-(1 / 4) : ℝ) ∈ ts := by rw [← hts]; simp
    exact ⟨_, List.mem_map.2 ⟨⟨_, ha⟩, List.mem_attach _ _, rfl⟩, _, List.mem_map.2 ⟨⟨_, hb'⟩, List.mem_attach _ _, rfl⟩,
      arc_far (h1 _) (h1 _) (h2 _) (h2 _)⟩
  · rw [C38_fit_exact opt ho _ (-3, 200) 3 (by norm_num) (by rw [hcm, List.length_map, hlen]; norm_num) hnc honc,
      if_pos (by norm_num)]
  · obtain ⟨q, hq⟩ := List.exists_mem_of_ne_nil m hm0
    obtain ⟨out, hout⟩ := series_ok opt (l := l) (le_refl 0) (by norm_num) e ⟨q, hq, (hx q hq).2⟩
    rw [hout]
    congr 1
    rw [List.eq_nil_iff_forall_not_mem]
    intro o ho
    obtain ⟨-, -, -, -, g1, -, -, g2, g3⟩ := ((C78_rows opt _ (digits_series le_rfl (by norm_num) e m) out hout).2 o).1 ho
    by_cases he : l = o.loc ∧ 0 = o.pin
    · obtain ⟨e1, e2⟩ := he
      rw [← e1, ← e2, if_pos rfl] at g3
      have hg : good (series l 0 e m) l 0 = m := by
        unfold good
        rw [seen_series, List.filter_eq_self]
        intro q hq
        simpa using (hx q hq).2
      rw [hg] at g3
      exact not_spread hm0 (fun q hq => (hx q hq).1) g3.1
    · rw [seen_other _ _ _ _ he] at g1
      simp at g1

/-- The least squares routine stays where the residuals vanish. -/
def Stays (opt : List (ℝ × ℝ) → ℝ × ℝ → ℝ × ℝ) : Prop := ∀ pts s, Circ.scatter pts s = 0 → opt pts s = s

theorem fit_two (opt : List (ℝ × ℝ) → ℝ × ℝ → ℝ × ℝ) (ho : Stays opt) (a b : ℝ × ℝ) (h1 : 2 ≤ Circ.D a b) (h2 : Circ.D a b ≤ 10) :
    fitCircle opt [a, b] = .ok (((a.1 + b.1) / 2, (a.2 + b.2) / 2), Circ.D a b / 2) := by
  obtain ⟨r, hr⟩ := C38_three_points [a, b] (by simp) (by simp)
  simp only [List.map_cons, List.map_nil, List.sum_cons, List.sum_nil, add_zero, List.length_cons, List.length_nil, Nat.zero_add,
    Nat.reduceAdd, Nat.cast_ofNat] at hr
  set c : ℝ × ℝ := ((a.1 + b.1) / 2, (a.2 + b.2) / 2) with hc
  have hrad : Model.Circles.radii [a, b] c = [Circ.D a b / 2, Circ.D a b / 2] := by
    have e : ∀ x y : ℝ, x = y / 2 → ∀ z w : ℝ, z = w / 2 → Real.sqrt (x ^ 2 + z ^ 2) = Real.sqrt (y ^ 2 + w ^ 2) / 2 := by
      intro x y hx z w hz
      have h4 : Real.sqrt (y ^ 2 + w ^ 2) / 2 = Real.sqrt ((y ^ 2 + w ^ 2) / 4) := by
        rw [Real.sqrt_div (by positivity), show (4 : ℝ) = 2 ^ 2 by norm_num, Real.sqrt_sq (by norm_num)]
      rw [h4, hx, hz]
      congr 1
      ring
    have e2 : ∀ x y : ℝ, (x - y) ^ 2 = (-(x - y)) ^ 2 := by intro x y; ring
    unfold Model.Circles.radii
    simp only [List.map_cons, List.map_nil, hypot, hc, Circ.D]
    congr 1
    · exact e _ _ (by ring) _ _ (by ring)
    · congr 1
      rw [e2 a.1 b.1, e2 a.2 b.2]
      exact e _ _ (by ring) _ _ (by ring)
  have hmean : meanL (Model.Circles.radii [a, b] c) = Circ.D a b / 2 := by
    rw [hrad]; unfold meanL; simp
  have hrv : r = Circ.D a b / 2 := by
    have h3 := hr
    unfold fastFit at h3
    rw [if_neg (by simp)] at h3
    have h4 := Except.ok.inj h3
    have h5 := congrArg Prod.fst h4
    have h6 := congrArg Prod.snd h4
    dsimp only at h5 h6
    rw [h5] at h6
    rw [← h6]
    exact hmean
  have hst : opt [a, b] c = c := by
    apply ho
    have hD : ∀ p q, Circ.D p q = hypot (p.1 - q.1) (p.2 - q.2) := fun _ _ => rfl
    have h3 : Circ.D a c = Circ.D a b / 2 ∧ Circ.D b c = Circ.D a b / 2 := by
      have := hrad
      unfold Model.Circles.radii at this
      simp only [List.map_cons, List.map_nil, List.cons.injEq, and_true] at this
      exact this
    unfold Circ.scatter
    simp only [List.map_cons, List.map_nil, List.sum_cons, List.sum_nil, h3.1, h3.2, List.length_cons, List.length_nil]
    norm_num
  have e : fitCircle opt [a, b] = (fastFit false [a, b] >>= fun f => if f.2 < 1 ∨ f.2 > 5 then .error .valueError else
      if meanL (Model.Circles.radii [a, b] (opt [a, b] f.1)) < 1 ∨ meanL (Model.Circles.radii [a, b] (opt [a, b] f.1)) > 5 then .error .valueError
      else .ok (opt [a, b] f.1, meanL (Model.Circles.radii [a, b] (opt [a, b] f.1)))) := rfl
  rw [e]
  have hr' : fastFit false [a, b] = .ok (c, r) := hr
  rw [hr']
  change (if r < 1 ∨ r > 5 then Except.error PyErr.valueError else _) = _
  rw [if_neg (by rw [hrv, not_or]; constructor <;> linarith)]
  dsimp only
  rw [hst, hmean, if_neg (by rw [not_or]; constructor <;> linarith)]

section
open Verif.Model Verif.Model.Trig Verif.Model.Xy2qs Verif.Lemmas.Trig Verif.Lemmas.Xy2qs

theorem uv_axis {x : ℝ} (hx : 0 < x) : xy2uv x 0 = (r2s x, 0) := by
  have e : hypot x 0 = x := by unfold hypot; rw [show x ^ 2 + 0 ^ 2 = x ^ 2 by ring, Real.sqrt_sq hx.le]
  obtain ⟨h1, h2⟩ := uv_mul x 0
  rw [e] at h1 h2
  refine Prod.ext ?_ ?_
  · exact mul_left_cancel₀ hx.ne' (h1.trans (mul_comm _ _))
  · rw [mul_zero] at h2
    rcases mul_eq_zero.1 h2 with h | h
    · exact absurd h hx.ne'
    · exact h

theorem xy_axis {u : ℝ} (h1 : 0 < u) (h2 : u ≤ 450) : (uv2xy u 0).1 ≠ 0 := by
  have e : hypot u 0 = u := by unfold hypot; rw [show u ^ 2 + 0 ^ 2 = u ^ 2 by ring, Real.sqrt_sq h1.le]
  have h3 := cosd_arctan2d u 0
  rw [e] at h3
  have h4 : cosd (arctan2d 0 u) ≠ 0 := by intro h; rw [h, mul_zero] at h3; linarith
  have h5 : uv2xy u 0 = (s2r (hypot u 0) * cosd (arctan2d 0 u), s2r (hypot u 0) * sind (arctan2d 0 u)) := rfl
  rw [h5, e]
  exact mul_ne_zero (s2r_pos h1.le h2).ne' h4

/-- **C78** (finding) The six measurements asked for are counted before those with `X = 0` are dropped. There are six measurements of which
two are usable, on a circle of radius 3 mm, for which a row is written; its centre is the point half way between the two, more than
2 mm from the centre of the circle on the curved surface. -/
theorem C78_two_measurements : ∃ m : List (ℝ × ℝ), m.length = 6 ∧ (m.filter fun q => q.1 ≠ 0).length = 2 ∧
    ∃ c u : ℝ × ℝ, (∀ q ∈ m, q.1 ≠ 0 → Circ.On c 3 (xy2uv q.1 q.2)) ∧ 2 < dist2 u c ∧
    ∀ opt, Stays opt → ∀ l : ℤ, 0 < l → ∃ e out, fitCircles opt (series l 0 e m) = .ok out ∧ ⟨l, 0, e, uv2xy u.1 u.2⟩ ∈ out := by
  have hsl := r2s_slope 100 104 (by norm_num) (by norm_num) (by norm_num)
  have hz := (r2s_slope 0 100 le_rfl (by norm_num) (by norm_num))
  rw [r2s_zero] at hz
  have ha := uv_axis (x := 100) (by norm_num)
  have hb := uv_axis (x := 104) (by norm_num)
  generalize r2s 100 = A at *
  generalize r2s 104 = B at *
  norm_num at hsl hz
  set m : List (ℝ × ℝ) := [(100, 0), (104, 0), (0, 0), (0, 0), (0, 0), (0, 0)] with hm
  have hfil : (m.filter fun q => q.1 ≠ 0) = [(100, 0), (104, 0)] := by
    rw [hm]
    simp
  have hD : Circ.D (A, 0) (B, 0) = B - A := by
    unfold Circ.D
    dsimp only
    rw [show (A - B) ^ 2 + (0 - 0) ^ 2 = (B - A) ^ 2 by ring, Real.sqrt_sq (by linarith)]
  have hk : 0 ≤ 9 - ((B - A) / 2) ^ 2 := by nlinarith
  refine ⟨m, rfl, by rw [hfil]; rfl, ((A + B) / 2, Real.sqrt (9 - ((B - A) / 2) ^ 2)), ((A + B) / 2, (0 + 0) / 2), ?_, ?_, ?_⟩
  · intro q hq hne
    have : q ∈ m.filter fun q => q.1 ≠ 0 := by rw [List.mem_filter]; exact ⟨hq, by simpa using hne⟩
    rw [hfil] at this
    simp only [List.mem_cons, List.not_mem_nil, or_false] at this
    unfold Circ.On
    rcases this with rfl | rfl
    · rw [ha]
      dsimp only
      rw [zero_sub, neg_sq, Real.sq_sqrt hk]; ring
    · rw [hb]
      dsimp only
      rw [zero_sub, neg_sq, Real.sq_sqrt hk]; ring
  · unfold Spec.dist2
    dsimp only
    apply Real.lt_sqrt_of_sq_lt
    rw [show ((0 : ℝ) + 0) / 2 - Real.sqrt (9 - ((B - A) / 2) ^ 2) = -Real.sqrt (9 - ((B - A) / 2) ^ 2) by ring, neg_sq, Real.sq_sqrt hk]
    nlinarith
  · intro opt ho l hl
    refine ⟨uv2xy ((A + B) / 2) ((0 + 0) / 2), ?_⟩
    obtain ⟨out, hout⟩ := series_ok opt (l := l) (le_refl 0) (by norm_num) (uv2xy ((A + B) / 2) ((0 + 0) / 2))
      (m := m) ⟨(100, 0), by rw [hm]; simp, by norm_num⟩
    refine ⟨out, hout, ?_⟩
    rw [(C78_rows opt _ (digits_series le_rfl (by norm_num) _ m) out hout).2]
    dsimp only
    have hg : good (series l 0 (uv2xy ((A + B) / 2) ((0 + 0) / 2)) m) l 0 = [(100, 0), (104, 0)] := by
      unfold good
      rw [seen_series, hfil]
    refine ⟨hl, le_rfl, by norm_num, expected_series _ _ _ (by rw [hm]; simp), by rw [seen_series]; rfl, ?_, ?_, ?_, ?_⟩
    · have : ((0 : ℝ) + 0) / 2 = 0 := by norm_num
      rw [this]
      exact xy_axis (by linarith) (by linarith)
    · show dist2 _ _ < 3
      unfold Spec.dist2
      rw [sub_self, sub_self]
      norm_num
    · rw [hg]; simp
    · rw [hg, if_pos rfl]
      refine ⟨?_, ((A + B) / 2, (0 + 0) / 2), Circ.D (A, 0) (B, 0) / 2, ?_, rfl⟩
      · unfold Spread; norm_num
      · unfold curved
        simp only [List.map_cons, List.map_nil, ha, hb]
        exact fit_two opt ho (A, 0) (B, 0) (by rw [hD]; linarith) (by rw [hD]; linarith)

example : ∃ opt, Circ.Descends opt ∧ Stays opt := ⟨fun _ s => s, fun _ _ => le_rfl, fun _ _ _ => rfl⟩

/-- Points further round the circle. -/
theorem wide_meas (t : ℝ) (ht : |t| ≤ 2) : ∃ q : ℝ × ℝ, xy2uv q.1 q.2 = arcPt t ∧ radius q ≤ 430 ∧
    98 / 100 * (6 * t ^ 2 / (1 + t ^ 2)) ≤ -q.1 ∧ -q.1 ≤ 102 / 100 * (6 * t ^ 2 / (1 + t ^ 2)) := by
  have hp : (0 : ℝ) < 1 + t ^ 2 := by positivity
  have hv : |6 * t / (1 + t ^ 2)| ≤ 12 := by
    rw [abs_div, abs_of_pos hp, div_le_iff₀ hp, abs_mul, abs_of_pos (by norm_num : (0 : ℝ) < 6)]
    nlinarith [sq_nonneg t]
  rw [abs_le] at hv
  have hu0 : 0 ≤ 6 * t ^ 2 / (1 + t ^ 2) := by positivity
  have hu6 : 6 * t ^ 2 / (1 + t ^ 2) ≤ 6 := by rw [div_le_iff₀ hp]; linarith
  have e1 : (arcPt t).1 = -(6 * t ^ 2 / (1 + t ^ 2)) := by unfold arcPt; dsimp only; rw [neg_div]
  have e2 : (arcPt t).2 = 200 + 6 * t / (1 + t ^ 2) := rfl
  generalize 6 * t ^ 2 / (1 + t ^ 2) = w at *
  generalize 6 * t / (1 + t ^ 2) = v at *
  have h1 : 180 ≤ hypot (arcPt t).1 (arcPt t).2 := by
    unfold hypot
    apply Real.le_sqrt_of_sq_le
    rw [e1, e2]
    nlinarith
  have h2 : hypot (arcPt t).1 (arcPt t).2 ≤ 220 := by
    unfold hypot
    rw [Real.sqrt_le_iff, e1, e2]
    constructor
    · norm_num
    · nlinarith
  obtain ⟨x, y, h6, h7, h8⟩ := uv_surj (u := (arcPt t).1) (v := (arcPt t).2) (by linarith) (by linarith)
  have h9 := (uv_mul x y).1
  have h10 := hypot_uv h8
  rw [h6] at h9 h10
  dsimp only at h9 h10
  have hs := (r2s_slope 0 (hypot x y) le_rfl h7.le h8)
  rw [r2s_zero] at hs
  have hpos := r2s_pos h7.le h8
  rw [e1] at h9
  rw [← h10] at hs h9 hpos
  generalize hypot (arcPt t).1 (arcPt t).2 = S at *
  norm_num at hs
  have hrad : radius (x, y) = hypot x y := rfl
  refine ⟨(x, y), h6, by rw [hrad]; linarith, ?_, ?_⟩
  · show _ ≤ -x
    have : S * (98 / 100 * w) ≤ S * (-x) := by
      have : S * (-x) = hypot x y * w := by linarith
      rw [this]
      nlinarith
    exact le_of_mul_le_mul_left this hpos
  · show -x ≤ _
    have : S * (-x) ≤ S * (102 / 100 * w) := by
      have : S * (-x) = hypot x y * w := by linarith
      rw [this]
      nlinarith
    exact le_of_mul_le_mul_left this hpos

/-- The hypotheses of `C78_circle` are met by six measurements round a circle of radius 3 mm. -/
example : ∃ (P : ℝ × ℝ) (m : List (ℝ × ℝ)), radius P ≤ 431 ∧ 6 ≤ (seen (series 1000 0 P m) 1000 0).length ∧
    4 ≤ (good (series 1000 0 P m) 1000 0).length ∧ (good (series 1000 0 P m) 1000 0).Nodup ∧
    (∀ q ∈ good (series 1000 0 P m) 1000 0, radius q ≤ 450) ∧ Spread (good (series 1000 0 P m) 1000 0) ∧
    (∀ q ∈ good (series 1000 0 P m) 1000 0, dist2 (xy2uv q.1 q.2) (xy2uv P.1 P.2) = 3) ∧
    expected (series 1000 0 P m) 1000 0 = some P ∧ P.1 ≠ 0 ∧ dist2 P P < 2.995 ∧
    ∃ out, fitCircles (fun _ s => s) (series 1000 0 P m) = .ok out := by
  have hc1 : (1 : ℝ) ≤ hypot (-3) 200 := by unfold hypot; apply Real.le_sqrt_of_sq_le; norm_num
  have hc2 : hypot (-3 : ℝ) 200 ≤ 201 := by unfold hypot; rw [Real.sqrt_le_iff]; norm_num
  obtain ⟨px, py, hP, hP1, hP2⟩ := uv_surj hc1 (by linarith)
  have hPr : hypot px py ≤ 431 := by
    have h10 := hypot_uv hP2
    rw [hP] at h10
    have hs := (r2s_slope 0 (hypot px py) le_rfl hP1.le hP2).1
    rw [r2s_zero] at hs
    norm_num at hs
    dsimp only at h10
    linarith
  have hPx : px ≠ 0 := by
    intro h
    have h9 := (uv_mul px py).1
    rw [hP] at h9
    dsimp only at h9
    rw [h, mul_zero, ← h] at h9
    linarith
  obtain ⟨a, a1, a2, a3, a4⟩ := wide_meas (1 / 2) (by rw [abs_le]; norm_num)
  obtain ⟨b, b1, b2, b3, b4⟩ := wide_meas (-(1 / 2)) (by rw [abs_le]; norm_num)
  obtain ⟨c, c1, c2, c3, c4⟩ := wide_meas 2 (by rw [abs_le]; norm_num)
  obtain ⟨d, d1, d2, d3, d4⟩ := wide_meas (-2) (by rw [abs_le]; norm_num)
  obtain ⟨f, f1, f2, f3, f4⟩ := wide_meas 1 (by rw [abs_le]; norm_num)
  obtain ⟨g, g1, g2, g3, g4⟩ := wide_meas (-1) (by rw [abs_le]; norm_num)
  norm_num at a3 a4 b3 b4 c3 c4 d3 d4 f3 f4 g3 g4
  have hgood : good (series 1000 0 (px, py) [a, b, c, d, f, g]) 1000 0 = [a, b, c, d, f, g] := by
    unfold good
    rw [seen_series, List.filter_eq_self]
    simp only [List.mem_cons, List.not_mem_nil, or_false, decide_eq_true_eq]
    rintro q (rfl | rfl | rfl | rfl | rfl | rfl) <;> (intro h; linarith)
  have hon : ∀ t : ℝ, dist2 (arcPt t) (-3, 200) = 3 := by
    intro t
    have := arc_on t
    unfold Circ.On at this
    unfold Spec.dist2
    rw [this, Real.sqrt_sq (by norm_num)]
  have hv : ∀ t t' : ℝ, (arcPt t).2 ≠ (arcPt t').2 → ∀ {q q' : ℝ × ℝ}, xy2uv q.1 q.2 = arcPt t → xy2uv q'.1 q'.2 = arcPt t' → q ≠ q' := by
    rintro t t' h q q' h1 h2 rfl
    rw [h1] at h2
    exact h (congrArg Prod.snd h2)
  refine ⟨(px, py), [a, b, c, d, f, g], hPr, ?_, ?_, ?_, ?_, ?_, ?_, expected_series _ _ _ (by simp), hPx, ?_, ?_⟩
  · rw [seen_series]; simp
  · rw [hgood]; simp
  · rw [hgood]
    have hab : a ≠ b := hv _ _ (by unfold arcPt; norm_num) a1 b1
    have hcd : c ≠ d := hv _ _ (by unfold arcPt; norm_num) c1 d1
    have hfg : f ≠ g := hv _ _ (by unfold arcPt; norm_num) f1 g1
    have hx : ∀ {q q' : ℝ × ℝ}, q.1 ≠ q'.1 → q ≠ q' := by rintro q q' h rfl; exact h rfl
    have n1 : a ≠ c := hx fun h => by linarith
    have n2 : a ≠ d := hx fun h => by linarith
    have n3 : a ≠ f := hx fun h => by linarith
    have n4 : a ≠ g := hx fun h => by linarith
    have n5 : b ≠ c := hx fun h => by linarith
    have n6 : b ≠ d := hx fun h => by linarith
    have n7 : b ≠ f := hx fun h => by linarith
    have n8 : b ≠ g := hx fun h => by linarith
    have n9 : c ≠ f := hx fun h => by linarith
    have n10 : c ≠ g := hx fun h => by linarith
    have n11 : d ≠ f := hx fun h => by linarith
    have n12 : d ≠ g := hx fun h => by linarith
    simp [hab, hcd, hfg, n1, n2, n3, n4, n5, n6, n7, n8, n9, n10, n11, n12]
  · rw [hgood]
    simp only [List.mem_cons, List.not_mem_nil, or_false]
    rintro q (rfl | rfl | rfl | rfl | rfl | rfl) <;> linarith
  · rw [hgood]
    unfold Spread
    generalize (([a, b, c, d, f, g].map Prod.fst).sum / (([a, b, c, d, f, g].length : ℕ) : ℝ)) = μ
    simp only [List.map_cons, List.map_nil, List.sum_cons, List.sum_nil, List.length_cons, List.length_nil]
    have k1 : 9 ≤ (a.1 - c.1) ^ 2 := by nlinarith
    have k2 : 9 ≤ (b.1 - d.1) ^ 2 := by nlinarith
    have k3 := sq_nonneg (a.1 + c.1 - 2 * μ)
    have k4 := sq_nonneg (b.1 + d.1 - 2 * μ)
    have k5 := sq_nonneg (f.1 - μ)
    have k6 := sq_nonneg (g.1 - μ)
    norm_num
    nlinarith
  · rw [hgood]
    simp only [List.mem_cons, List.not_mem_nil, or_false, hP]
    rintro q (rfl | rfl | rfl | rfl | rfl | rfl)
    · rw [a1]; exact hon _
    · rw [b1]; exact hon _
    · rw [c1]; exact hon _
    · rw [d1]; exact hon _
    · rw [f1]; exact hon _
    · rw [g1]; exact hon _
  · unfold Spec.dist2
    rw [sub_self, sub_self]
    norm_num
  · exact series_ok _ (le_refl 0) (by norm_num) _ ⟨a, by simp, fun h => by linarith⟩

/-- The hypotheses of `C78_fiducial`: five good measurements out of seven. -/
example : let m : List (ℝ × ℝ) := [(100, 0), (100, 0), (100, 0), (7, 8), (100, 0), (100, 0), (-50, 3)]
    (good (series 1541 3 (101, 0) m) 1541 3).length < 2 * (good (series 1541 3 (101, 0) m) 1541 3).count (100, 0) ∧
    ∃ out, fitCircles (fun _ s => s) (series 1541 3 (101, 0) m) = .ok out := by
  intro m
  constructor
  · have hg : good (series 1541 3 (101, 0) m) 1541 3 = m := by
      unfold good
      rw [seen_series, List.filter_eq_self]
      simp [m]
    rw [hg]
    simp [m]
  · exact series_ok _ (by norm_num) (by norm_num) _ ⟨(100, 0), by simp [m], by norm_num⟩

end

end Verif.Props.FitCircles
