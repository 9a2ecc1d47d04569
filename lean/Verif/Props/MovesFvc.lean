import Verif.Model.MovesFvc
import Verif.Props.FpMetrology
import Verif.Props.GetPosmoves

/-!
# Property C81: moves joined to measured positions (`bin/get_posmoves_with_fvc_data`)
-/

namespace Verif.Props.MovesFvc
open Verif.Py Verif.Model.MovesFvc
open Verif.Model.Ptl2fp (V3 fp2ptl withZ)
open Verif.Props.FpMetrology (bind_inv mapM_ok_of forall₂_mem forall₂_mem')

variable {ι δ : Type}

/-! ### What is expected -/

/-- The numbers meant by an argument: numbers and half open ranges. -/
def Asked (a : Option (List Item)) (n : ℤ) : Prop :=
  match a with
  | none => True
  | some l => ∃ i ∈ l, match i with
    | .one k => n = k
    | .colon a b => (a : ℤ) ≤ n ∧ n < b
    | .dots a b => (a : ℤ) ≤ n ∧ n < b
    | .minus a b => (a : ℤ) ≤ n ∧ n < b

/-- Only numbers, no ranges. -/
def Plain (a : Option (List Item)) : Prop := ∀ l, a = some l → ∀ i ∈ l, ∃ n, i = .one n

/-- The images asked for: those given that exist, have both keywords, and are of exposures and iterations asked for. -/
def Wanted (head : PyStr → Option (Option ℤ × Option ℤ)) (ids iters : Option (List Item)) (f : PyStr) (i : Img) : Prop :=
  i.file = f ∧ head f = some (some i.expid, some i.iter) ∧ Asked ids i.expid ∧ Asked iters i.iter

/-- The last measurement of a positioner in an exposure. -/
def lastSeen [DecidableEq ι] (data : List (Option ι × Meas ι)) (p : ι) (n k : ℤ) : Option (Meas ι) :=
  ((data.filter fun q => decide (q.1 = some p ∧ q.2.expid = n ∧ q.2.iter = k)).map Prod.snd).getLast?

/-- What becomes of a move: nothing without a measurement of its exposure (or one at `X = 0`), otherwise the row with the measured position,
in the focal plane and in the petal. -/
def Joined [DecidableEq ι] (al : Model.Ptl2fp.Dict) (r2z : ℝ → ℝ) (rehome : List ℤ) (data : List (Option ι × Meas ι)) (loc : ℤ) (p : ι) (m : Move δ)
    (o : Option (Out δ)) : Prop :=
  ∃ n k, m.expid = some n ∧ m.iter = some k ∧
    ((o = none ∧ ∀ s, lastSeen data p n k = some s → s.spot.x = 0) ∨
     ∃ s r, lastSeen data p n k = some s ∧ s.spot.x ≠ 0 ∧ o = some r ∧ r.move = m ∧ r.loc = loc ∧ r.x = s.spot.x ∧ r.y = s.spot.y ∧
      (r.recent = if n ∈ rehome then 1 else 0) ∧
      fp2ptl al loc.toNat ![s.spot.x, s.spot.y, r2z (Real.sqrt (s.spot.x ^ 2 + s.spot.y ^ 2))] = .ok r.ptl)

/-- Iterations have at most three digits. -/
def Digits (data : List (Option ι × Meas ι)) (moves : List (Move δ)) : Prop :=
  (∀ q ∈ data, 0 ≤ q.2.iter ∧ q.2.iter < 1000) ∧ ∀ m ∈ moves, ∀ k, m.iter = some k → 0 ≤ k ∧ k < 1000

/-! ### Arguments -/

theorem numbers_iff (a : List Item) (n : ℤ) : n ∈ a.flatMap Item.numbers ↔ Asked (some a) n := by
  unfold Asked
  rw [List.mem_flatMap]
  refine exists_congr fun i => and_congr_right fun _ => ?_
  have key : ∀ a b : ℕ, n ∈ (List.range' a (b - a)).map (Nat.cast : ℕ → ℤ) ↔ (a : ℤ) ≤ n ∧ n < b := by
    intro a b
    simp only [List.mem_map, List.mem_range'_1]
    constructor
    · rintro ⟨k, h, rfl⟩; omega
    · rintro ⟨h1, h2⟩; exact ⟨n.toNat, by omega, by omega⟩
  cases i with
  | one k => simp [Item.numbers]
  | colon a b => exact key a b
  | dots a b => exact key a b
  | minus a b => exact key a b

theorem mem_selectImages (ids iters : Option (List Item)) (l : List Img) (i : Img) :
    i ∈ selectImages ids iters l ↔ i ∈ l ∧ Asked ids i.expid ∧ Asked iters i.iter := by
  unfold selectImages
  have h0 : ∀ n, Asked none n := fun n => by unfold Asked; trivial
  cases ids with
  | none => cases iters with
    | none => simp [h0]
    | some b =>
      simp only [List.mem_filter, decide_eq_true_eq, numbers_iff]
      simp [h0]
  | some a => cases iters with
    | none =>
      simp only [List.mem_filter, decide_eq_true_eq, numbers_iff]
      simp [h0]
    | some b =>
      simp only [List.mem_filter, decide_eq_true_eq, numbers_iff]
      tauto

/-- **C81** The images used are those given that exist, carry both keywords, and are of the exposures and iterations asked for
(ranges do not include their end). -/
theorem C81_images (head : PyStr → Option (Option ℤ × Option ℤ)) (files : List PyStr) (ids iters : Option (List Item)) (i : Img) :
    i ∈ selectImages ids iters (images head files) ↔ ∃ f ∈ files, Wanted head ids iters f i := by
  rw [mem_selectImages]
  unfold images Wanted
  rw [List.mem_filterMap]
  constructor
  · rintro ⟨⟨f, hf, h⟩, h1, h2⟩
    refine ⟨f, hf, ?_⟩
    split at h
    · rename_i n k hh
      injection h with h
      subst h
      exact ⟨rfl, hh, h1, h2⟩
    · cases h
  · rintro ⟨f, hf, h1, h2, h3, h4⟩
    refine ⟨⟨f, hf, ?_⟩, h3, h4⟩
    rw [h2]
    dsimp only
    cases i
    simp only at h1
    rw [h1]

example : ∃ (head : PyStr → Option (Option ℤ × Option ℤ)) (i : Img),
    Wanted head (some [.one 5, .minus 7 9]) none "a".toList i ∧ i.expid = 8 :=
  ⟨fun _ => some (some 8, some 0), ⟨"a".toList, 8, 0⟩, ⟨rfl, rfl, ⟨.minus 7 9, by simp, by norm_num⟩, trivial⟩, rfl⟩

/-! ### Data files -/

theorem process_known (dir : PyStr) (proc : PyStr → Option (List (Spot ι))) (l : List Img) : ∀ fs n t, fs n = some t →
    (process dir proc fs l).1 n = some t := by
  induction l with
  | nil => intro fs n t h; exact h
  | cons i rest ih =>
    intro fs n t h
    unfold process
    cases h1 : fs (dataName dir i.file) with
    | some t' => exact ih fs n t h
    | none =>
      dsimp only
      cases proc i.file with
      | none => exact ih fs n t h
      | some t' =>
        dsimp only
        apply ih
        rw [if_neg]
        · exact h
        · rintro rfl
          rw [h] at h1
          cases h1

theorem process_other (dir : PyStr) (proc : PyStr → Option (List (Spot ι))) (l : List Img) : ∀ fs n, (∀ i ∈ l, dataName dir i.file ≠ n) →
    (process dir proc fs l).1 n = fs n := by
  induction l with
  | nil => intro fs n _; rfl
  | cons i rest ih =>
    intro fs n h
    have h' := fun j hj => h j (List.mem_cons_of_mem _ hj)
    unfold process
    cases fs (dataName dir i.file) with
    | some t => exact ih fs n h'
    | none =>
      dsimp only
      cases proc i.file with
      | none => exact ih fs n h'
      | some t =>
        dsimp only
        rw [ih _ n h']
        rw [if_neg fun e => h i (by simp) e.symm]

/-- The table of an image: the one in the data directory if there is one, else the result of the processing. -/
def tableOf (dir : PyStr) (proc : PyStr → Option (List (Spot ι))) (fs : Files ι) (i : Img) : Option (List (Spot ι)) :=
  fs (dataName dir i.file) <|> proc i.file

/-- **C81** When the names of the images (without directory) differ, each image is used with its own table: the one found in the data
directory or else the result of processing it; images whose processing fails are left out. No file of the directory is changed. -/
theorem C81_tables (dir : PyStr) (proc : PyStr → Option (List (Spot ι))) (l : List Img) :
    ∀ fs, (l.map fun i => dataName dir i.file).Nodup →
      (process dir proc fs l).2 = (l.filter fun i => (tableOf dir proc fs i).isSome) ∧
      (∀ i ∈ l, (process dir proc fs l).1 (dataName dir i.file) = tableOf dir proc fs i) ∧
      ∀ n t, fs n = some t → (process dir proc fs l).1 n = some t := by
  induction l with
  | nil => intro fs _; exact ⟨rfl, by simp, fun n t h => h⟩
  | cons i rest ih =>
    intro fs hn
    rw [List.map_cons, List.nodup_cons] at hn
    have hne : ∀ j ∈ rest, dataName dir j.file ≠ dataName dir i.file := by
      intro j hj e
      exact hn.1 (List.mem_map.2 ⟨j, hj, e⟩)
    refine ⟨?_, ?_, fun n t h => process_known dir proc _ fs n t h⟩
    · unfold process
      cases h1 : fs (dataName dir i.file) with
      | some t =>
        rw [List.filter_cons_of_pos (by simp [tableOf, h1])]
        dsimp only
        rw [(ih fs hn.2).1]
      | none =>
        dsimp only
        cases h2 : proc i.file with
        | none =>
          rw [List.filter_cons_of_neg (by simp [tableOf, h1, h2])]
          exact (ih fs hn.2).1
        | some t =>
          rw [List.filter_cons_of_pos (by simp [tableOf, h1, h2])]
          dsimp only
          rw [(ih _ hn.2).1]
          congr 1
          apply List.filter_congr
          intro j hj
          unfold tableOf
          dsimp only
          rw [if_neg (hne j hj)]
    · intro j hj
      rcases List.mem_cons.1 hj with rfl | hj
      · unfold process tableOf
        cases h1 : fs (dataName dir j.file) with
        | some t => exact process_known dir proc rest fs _ t h1
        | none =>
          dsimp only
          cases h2 : proc j.file with
          | none =>
            dsimp only
            rw [process_other dir proc rest fs _ hne, h1]
            rfl
          | some t =>
            dsimp only
            rw [process_other dir proc rest _ _ hne, if_pos rfl]
            rfl
      · unfold process
        cases h1 : fs (dataName dir i.file) with
        | some t => exact (ih fs hn.2).2.1 j hj
        | none =>
          dsimp only
          cases h2 : proc i.file with
          | none => exact (ih fs hn.2).2.1 j hj
          | some t =>
            dsimp only
            rw [(ih _ hn.2).2.1 j hj]
            unfold tableOf
            dsimp only
            rw [if_neg (hne j hj)]

/-- **C81** (finding) Of two images with the same name in different directories, the second is never looked at: it gets the table of the
first, that is the positions measured in another exposure. -/
theorem C81_same_name (dir : PyStr) (proc : PyStr → Option (List (Spot ι))) (fs : Files ι) (i j : Img)
    (h : dataName dir j.file = dataName dir i.file) (hf : fs (dataName dir i.file) = none) (t : List (Spot ι)) (hp : proc i.file = some t) :
    (process dir proc fs [i, j]).2 = [i, j] ∧ (process dir proc fs [i, j]).1 (dataName dir j.file) = some t := by
  have e : process dir proc fs [i, j] = (fun n => if n = dataName dir i.file then some t else fs n, [i, j]) := by
    unfold process
    rw [hf, hp]
    dsimp only
    unfold process
    dsimp only
    rw [h, if_pos rfl]
    rfl
  rw [e, h]
  exact ⟨rfl, if_pos rfl⟩

example : dataName "out".toList "a/fvc.fits".toList = dataName "out".toList "b/fvc.fits".toList := by decide

/-! ### Measurements -/

theorem fold_get {α κ ν : Type} [DecidableEq κ] (f : α → κ) (g : α → ν) (l : List α) (k : κ) : ∀ d : Dict κ ν,
    (l.foldl (fun d r => d.set (f r) (g r)) d).get? k = (((l.filter fun r => decide (f r = k)).map g).getLast? <|> d.get? k) := by
  induction l with
  | nil => intro d; simp
  | cons a t ih =>
    intro d
    rw [List.foldl_cons, ih, Dict.get?_set]
    by_cases h : f a = k
    · rw [if_pos h, List.filter_cons_of_pos (by simpa using h), List.map_cons, List.getLast?_cons]
      cases ((t.filter fun r => decide (f r = k)).map g).getLast? <;> rfl
    · rw [if_neg h, List.filter_cons_of_neg (by simpa using h)]

/-- The measurements of an image: the matched rows of its table. -/
def matched (dir : PyStr) (proc : PyStr → Option (List (Spot ι))) (fs : Files ι) (i : Img) : List (Meas ι) :=
  match tableOf dir proc fs i with
  | some t => (t.filter fun s => decide (0 ≤ s.loc)).map fun s => ⟨s, i.expid, i.iter⟩
  | none => []

/-- `d` is the device of a measurement: the one in its file, or else the one in the last row of the metrology about its location. -/
def Device (devCol : Bool) (met : List (ℤ × ι)) (m : Meas ι) (d : Option ι) : Prop :=
  if devCol then d = m.spot.dev else ∃ i, d = some i ∧ ∃ a b, met = a ++ (m.spot.loc, i) :: b ∧ ∀ q ∈ b, q.1 ≠ m.spot.loc

theorem last_iff {α : Type} (p : α → Prop) [DecidablePred p] (l : List α) (x : α) :
    (l.filter fun r => decide (p r)).getLast? = some x ↔ p x ∧ ∃ a b, l = a ++ x :: b ∧ ∀ q ∈ b, ¬ p q := by
  induction l with
  | nil => simp
  | cons r t ih =>
    by_cases h : p r
    · rw [List.filter_cons_of_pos (by simpa using h), List.getLast?_cons]
      cases hl : (t.filter fun r => decide (p r)).getLast? with
      | none =>
        have hn : ∀ q ∈ t, ¬ p q := by
          rw [List.getLast?_eq_none_iff, List.filter_eq_nil_iff] at hl
          simpa using hl
        constructor
        · intro e
          injection e with e
          subst e
          exact ⟨h, [], t, rfl, hn⟩
        · rintro ⟨hx, a, b, e, hb⟩
          cases a with
          | nil => injection e with e _; rw [e]; rfl
          | cons c a =>
            injection e with _ e
            exact absurd hx (hn x (by rw [e]; simp))
      | some y =>
        rw [hl] at ih
        constructor
        · intro e
          injection e with e
          obtain ⟨hx, a, b, e', hb⟩ := ih.1 (by rw [← e]; rfl)
          exact ⟨hx, r :: a, b, by rw [e']; rfl, hb⟩
        · rintro ⟨hx, a, b, e, hb⟩
          cases a with
          | nil =>
            exfalso
            injection e with e1 e2
            subst e1 e2
            have := List.mem_of_getLast? hl
            rw [List.mem_filter] at this
            exact hb y this.1 (by simpa using this.2)
          | cons c a =>
            injection e with _ e
            have := ih.2 ⟨hx, a, b, e, hb⟩
            injection this with this
            rw [this]
            rfl
    · rw [List.filter_cons_of_neg (by simpa using h), ih]
      constructor
      · rintro ⟨hx, a, b, e, hb⟩
        exact ⟨hx, r :: a, b, by rw [e]; rfl, hb⟩
      · rintro ⟨hx, a, b, e, hb⟩
        cases a with
        | nil => injection e with e _; subst e; exact absurd hx h
        | cons c a => injection e with _ e; exact ⟨hx, a, b, e, hb⟩

theorem devices_iff (devCol : Bool) (met : List (ℤ × ι)) (l : List (Meas ι)) (data : List (Option ι × Meas ι)) :
    devices devCol met l = .ok data ↔ List.Forall₂ (fun m q => q.2 = m ∧ Device devCol met m q.1) l data := by
  unfold devices
  cases devCol with
  | true =>
    rw [if_pos rfl]
    constructor
    · intro h
      injection h with h
      subst h
      rw [List.forall₂_map_right_iff, List.forall₂_same]
      intro m _
      exact ⟨rfl, rfl⟩
    · intro h
      congr 1
      induction h with
      | nil => rfl
      | cons h1 _ ih =>
        rw [List.map_cons, ih]
        congr 1
        ext1
        · exact h1.2.symm
        · exact h1.1.symm
  | false =>
    rw [if_neg (by simp)]
    dsimp only
    rw [Gpm.mapM_iff]
    have key : ∀ (m : Meas ι) (q : Option ι × Meas ι),
        ((match (met.foldl (fun (d : Dict ℤ ι) r => d.set r.1 r.2) []).get? m.spot.loc with
          | some i => Except.ok (some i, m)
          | none => .error PyErr.keyError) = .ok q) ↔ (q.2 = m ∧ Device false met m q.1) := by
      intro m q
      have e : (met.foldl (fun (d : Dict ℤ ι) r => d.set r.1 r.2) []).get? m.spot.loc =
          ((met.filter fun r => decide (r.1 = m.spot.loc)).getLast?).map Prod.snd := by
        rw [fold_get Prod.fst Prod.snd met m.spot.loc [], List.getLast?_map]
        cases (met.filter fun r => decide (r.1 = m.spot.loc)).getLast? <;> rfl
      rw [e]
      unfold Device
      rw [if_neg (by simp)]
      have := last_iff (fun r : ℤ × ι => r.1 = m.spot.loc) met
      cases hl : (met.filter fun r => decide (r.1 = m.spot.loc)).getLast? with
      | none =>
        constructor
        · intro h; cases h
        · rintro ⟨-, i, -, a, b, hab, hb⟩
          rw [(this (m.spot.loc, i)).2 ⟨rfl, a, b, hab, hb⟩] at hl
          cases hl
      | some x =>
        obtain ⟨hx, a, b, hab, hb⟩ := (this x).1 hl
        constructor
        · intro h
          injection h with h
          subst h
          refine ⟨rfl, x.2, rfl, a, b, ?_, hb⟩
          rw [hab, ← hx]
        · rintro ⟨h1, i, h2, a', b', hab', hb'⟩
          rw [(this (m.spot.loc, i)).2 ⟨rfl, a', b', hab', hb'⟩] at hl
          injection hl with hl
          subst hl
          show Except.ok _ = _
          congr 1
          ext1
          · exact h2.symm
          · exact h1.symm
    constructor
    · intro h; exact h.imp fun m q hq => (key m q).1 hq
    · intro h; exact h.imp fun m q hq => (key m q).2 hq

theorem gather_iff (dir : PyStr) (proc : PyStr → Option (List (Spot ι))) (fs : Files ι) (l : List Img)
    (hn : (l.map fun i => dataName dir i.file).Nodup) (data : List (Meas ι)) :
    gather dir (process dir proc fs l).1 (process dir proc fs l).2 = .ok data ↔
      (∃ i ∈ l, (tableOf dir proc fs i).isSome) ∧ data = l.flatMap (matched dir proc fs) := by
  obtain ⟨h1, h2, -⟩ := C81_tables dir proc l fs hn
  unfold gather
  rw [h1]
  by_cases h0 : (l.filter fun i => (tableOf dir proc fs i).isSome) = []
  · rw [if_pos h0]
    constructor
    · intro h; cases h
    · rintro ⟨⟨i, hi, h⟩, -⟩
      rw [List.filter_eq_nil_iff] at h0
      exact absurd h (h0 i hi)
  · rw [if_neg h0]
    have hex : ∃ i ∈ l, (tableOf dir proc fs i).isSome := by
      by_contra hc
      apply h0
      rw [List.filter_eq_nil_iff]
      intro i hi h
      exact hc ⟨i, hi, h⟩
    have key : ∀ l' : List Img, (∀ i ∈ l', i ∈ l) → ∃ t : List (List (Meas ι)),
        (l'.filter fun i => (tableOf dir proc fs i).isSome).mapM (readRows dir (process dir proc fs l).1) = .ok t ∧
        (t.flatten.filter fun m => decide (0 ≤ m.spot.loc)) = l'.flatMap (matched dir proc fs) := by
      intro l'
      induction l' with
      | nil => intro _; exact ⟨[], rfl, rfl⟩
      | cons i rest ih =>
        intro hl
        obtain ⟨t, ht1, ht2⟩ := ih fun j hj => hl j (List.mem_cons_of_mem _ hj)
        cases ho : tableOf dir proc fs i with
        | none =>
          rw [List.filter_cons_of_neg (by simp [ho])]
          refine ⟨t, ht1, ?_⟩
          rw [List.flatMap_cons, ht2]
          simp [matched, ho]
        | some a =>
          rw [List.filter_cons_of_pos (by simp [ho])]
          refine ⟨(a.map fun s => (⟨s, i.expid, i.iter⟩ : Meas ι)) :: t, ?_, ?_⟩
          · have e : readRows dir (process dir proc fs l).1 i = .ok (a.map fun s => (⟨s, i.expid, i.iter⟩ : Meas ι)) := by
              unfold readRows
              rw [h2 i (hl i (by simp)), ho]
            rw [List.mapM_cons, e, ht1]
            rfl
          · rw [List.flatten_cons, List.filter_append, ht2, List.flatMap_cons]
            congr 1
            simp only [matched, ho]
            rw [List.filter_map]
            rfl
    obtain ⟨t, ht1, ht2⟩ := key l fun _ h => h
    rw [ht1]
    constructor
    · intro h
      injection h with h
      exact ⟨hex, by rw [← h, ht2]⟩
    · rintro ⟨-, rfl⟩
      show Except.ok _ = _
      rw [ht2]

/-- **C81** The measurements used are the matched spots of all selected images, image by image, each with the exposure and iteration of its
image and the device from its file or from the metrology. There are none, and the script stops, exactly if no image has a table, or a
matched spot has a location the metrology does not know. -/
theorem C81_measurements (head : PyStr → Option (Option ℤ × Option ℤ)) (files : List PyStr) (ids iters : Option (List Item)) (dir : PyStr)
    (proc : PyStr → Option (List (Spot ι))) (fs : Files ι) (devCol : Bool) (met : List (ℤ × ι)) (data : List (Option ι × Meas ι))
    (hn : ((selectImages ids iters (images head files)).map fun i => dataName dir i.file).Nodup) :
    measurements head files ids iters dir proc fs devCol met = .ok data ↔
      (∃ i ∈ selectImages ids iters (images head files), (tableOf dir proc fs i).isSome) ∧
      List.Forall₂ (fun m q => q.2 = m ∧ Device devCol met m q.1)
        ((selectImages ids iters (images head files)).flatMap (matched dir proc fs)) data := by
  unfold measurements
  dsimp only
  constructor
  · intro h
    obtain ⟨l, hl, h⟩ := bind_inv h
    obtain ⟨h1, rfl⟩ := (gather_iff dir proc fs _ hn l).1 hl
    exact ⟨h1, (devices_iff devCol met _ data).1 h⟩
  · rintro ⟨h1, h2⟩
    rw [(gather_iff dir proc fs _ hn _).2 ⟨h1, rfl⟩]
    exact (devices_iff devCol met _ data).2 h2

/-! ### The join -/

theorem byKey_get [DecidableEq ι] (data : List (Option ι × Meas ι)) (hd : ∀ q ∈ data, 0 ≤ q.2.iter ∧ q.2.iter < 1000) (p : ι) (n k : ℤ)
    (hk : 0 ≤ k ∧ k < 1000) : (byKey data p).get? (n * 1000 + k) = lastSeen data p n k := by
  unfold byKey lastSeen
  rw [fold_get (fun q : Option ι × Meas ι => q.2.expid * 1000 + q.2.iter) Prod.snd, List.filter_filter]
  have e : (data.filter fun q => decide (q.2.expid * 1000 + q.2.iter = n * 1000 + k) && decide (q.1 = some p)) =
      data.filter fun q => decide (q.1 = some p ∧ q.2.expid = n ∧ q.2.iter = k) := by
    apply List.filter_congr
    intro q hq
    have := hd q hq
    rw [← Bool.decide_and]
    apply decide_eq_decide.2
    constructor
    · rintro ⟨h1, h2⟩; exact ⟨h2, by omega, by omega⟩
    · rintro ⟨h1, h2, h3⟩; exact ⟨by omega, h1⟩
  rw [e]
  cases ((data.filter fun q => decide (q.1 = some p ∧ q.2.expid = n ∧ q.2.iter = k)).map Prod.snd).getLast? <;> rfl

/-- The row of a move, before rows at `X = 0` are dropped. -/
noncomputable def rowOf [DecidableEq ι] (al : Model.Ptl2fp.Dict) (r2z : ℝ → ℝ) (rehome : List ℤ) (data : List (Option ι × Meas ι)) (loc : ℤ)
    (p : ι) (q : Move δ × ℤ) : Except PyErr (Out δ) := do
  let xy := position (byKey data p) q.2
  let v ← fp2ptl al loc.toNat (withZ r2z xy.1 xy.2)
  return (⟨q.1, loc, recent rehome q.1, xy.1, xy.2, v⟩ : Out δ)

theorem fp2ptl_some {al : Model.Ptl2fp.Dict} {p : ℕ} (h : (al p).isSome) (v : V3) : ∃ w, fp2ptl al p v = .ok w := by
  obtain ⟨a, ha⟩ := Option.isSome_iff_exists.1 h
  unfold fp2ptl Model.Ptl2fp.lookup
  rw [ha]
  exact ⟨_, rfl⟩

theorem lookup_isSome {al : Model.Ptl2fp.Dict} {p : ℕ} : (∃ a, Model.Ptl2fp.lookup al p = .ok a) ↔ (al p).isSome := by
  unfold Model.Ptl2fp.lookup
  cases al p with
  | none => simp
  | some a => simp

theorem table_iff [DecidableEq ι] (al : Model.Ptl2fp.Dict) (r2z : ℝ → ℝ) (rehome : List ℤ) (data : List (Option ι × Meas ι)) (loc : ℤ)
    (p : ι) (moves : List (Move δ)) (hd : Digits data moves) (rows : List (Out δ)) :
    table al r2z rehome data loc p moves = .ok rows ↔
      (al loc.toNat).isSome ∧ ∃ l, List.Forall₂ (Joined al r2z rehome data loc p) moves l ∧ rows = l.filterMap id := by
  by_cases hal : (al loc.toNat).isSome
  swap
  · constructor
    · intro h
      unfold table at h
      obtain ⟨_, -, h⟩ := bind_inv h
      obtain ⟨a, ha, h⟩ := bind_inv h
      exact absurd (lookup_isSome.1 ⟨a, ha⟩) hal
    · rintro ⟨h, -⟩; exact absurd h hal
  obtain ⟨a, ha⟩ := lookup_isSome.2 hal
  have one : ∀ m ∈ moves, ∀ kk, moveKey m = .ok kk → ∃ r, rowOf al r2z rehome data loc p (m, kk) = .ok r ∧
      Joined al r2z rehome data loc p m (if r.x = 0 then none else some r) ∧
      ∀ o, Joined al r2z rehome data loc p m o → o = if r.x = 0 then none else some r := by
    intro m hm kk hkk
    have hmk : ∃ n k, m.expid = some n ∧ m.iter = some k ∧ kk = n * 1000 + k := by
      unfold moveKey at hkk
      split at hkk
      · rename_i n k h1 h2
        injection hkk with hkk
        exact ⟨n, k, h1, h2, hkk.symm⟩
      · cases hkk
    obtain ⟨n, k, h1, h2, rfl⟩ := hmk
    have hg := byKey_get data hd.1 p n k (hd.2 m hm k h2)
    have hrec : recent rehome m = if n ∈ rehome then 1 else 0 := by unfold recent; rw [h1]
    have huniq : ∀ n' k', m.expid = some n' → m.iter = some k' → n' = n ∧ k' = k := by
      intro n' k' e1 e2
      rw [h1] at e1; rw [h2] at e2
      injection e1 with e1; injection e2 with e2
      exact ⟨e1.symm, e2.symm⟩
    unfold rowOf position
    dsimp only
    rw [hg]
    cases hs : lastSeen data p n k with
    | none =>
      dsimp only
      obtain ⟨v, hv⟩ := fp2ptl_some hal (withZ r2z 0 0)
      rw [hv]
      refine ⟨_, rfl, ?_, ?_⟩
      · rw [if_pos rfl]
        exact ⟨n, k, h1, h2, Or.inl ⟨rfl, by rw [hs]; intro s h; cases h⟩⟩
      · rintro o ⟨n', k', e1, e2, ho⟩
        obtain ⟨rfl, rfl⟩ := huniq n' k' e1 e2
        rw [if_pos rfl]
        rcases ho with ⟨ho, -⟩ | ⟨s, r, ho, -⟩
        · exact ho
        · rw [hs] at ho; cases ho
    | some s =>
      dsimp only
      obtain ⟨v, hv⟩ := fp2ptl_some hal (withZ r2z s.spot.x s.spot.y)
      rw [hv]
      refine ⟨_, rfl, ?_, ?_⟩
      · refine ⟨n, k, h1, h2, ?_⟩
        by_cases hx : s.spot.x = 0
        · left
          exact ⟨if_pos hx, by rw [hs]; intro s' h; injection h with h; rw [← h]; exact hx⟩
        · right
          exact ⟨s, _, hs, hx, if_neg hx, rfl, rfl, rfl, rfl, hrec, hv⟩
      · rintro o ⟨n', k', e1, e2, ho⟩
        obtain ⟨rfl, rfl⟩ := huniq n' k' e1 e2
        rcases ho with ⟨ho, hz⟩ | ⟨s', r, ho, hx, rfl, r1, r2, r3, r4, r5, r6⟩
        · rw [if_pos (hz s hs)]; exact ho
        · rw [hs] at ho
          injection ho with ho
          subst ho
          rw [if_neg (show ¬ s.spot.x = 0 from hx)]
          congr 1
          have hv' : fp2ptl al loc.toNat (withZ r2z s.spot.x s.spot.y) = .ok r.ptl := r6
          rw [hv] at hv'
          injection hv' with hv'
          cases r
          simp only at r1 r2 r3 r4 r5 hv'
          rw [r1, r2, r3, r4, r5, hv', hrec]
  constructor
  · intro h
    unfold table at h
    obtain ⟨keys, hkeys, h⟩ := bind_inv h
    obtain ⟨_, -, h⟩ := bind_inv h
    obtain ⟨out, hout, h⟩ := bind_inv h
    injection h with h
    refine ⟨hal, out.map fun r => if r.x = 0 then none else some r, ?_, ?_⟩
    · rw [Gpm.mapM_iff] at hkeys
      rw [Gpm.mapM_iff] at hout
      rw [List.forall₂_map_right_iff]
      clear * - one hkeys hout
      induction hkeys generalizing out with
      | nil => cases hout; exact List.Forall₂.nil
      | cons hk _ ih =>
        rw [List.zip_cons_cons] at hout
        cases hout with
        | cons ho hrest =>
          refine List.Forall₂.cons ?_ (ih (fun m hm => one m (List.mem_cons_of_mem _ hm)) _ hrest)
          obtain ⟨r, hr, hj, -⟩ := one _ (by simp) _ hk
          have : rowOf al r2z rehome data loc p _ = .ok _ := ho
          rw [hr] at this
          injection this with this
          rw [← this]
          exact hj
    · rw [← h]
      clear * -
      induction out with
      | nil => rfl
      | cons r t ih =>
        by_cases hx : r.x = 0
        · rw [List.filter_cons_of_neg (by simpa using hx), List.map_cons, if_pos hx, List.filterMap_cons]
          exact ih
        · rw [List.filter_cons_of_pos (by simpa using hx), List.map_cons, if_neg hx, List.filterMap_cons]
          exact congrArg _ ih
  · rintro ⟨-, l, hl, rfl⟩
    have hkeys : ∃ keys, moves.mapM moveKey = .ok keys := by
      apply mapM_ok_of
      intro m hm
      obtain ⟨o, -, n, k, h1, h2, -⟩ := forall₂_mem hl hm
      exact ⟨n * 1000 + k, by unfold moveKey; rw [h1, h2]⟩
    obtain ⟨keys, hkeys⟩ := hkeys
    have key : ∃ out : List (Out δ), (moves.zip keys).mapM (rowOf al r2z rehome data loc p) = .ok out ∧
        l = out.map fun r => if r.x = 0 then none else some r := by
      rw [Gpm.mapM_iff] at hkeys
      clear * - one hkeys hl
      induction hkeys generalizing l with
      | nil => cases hl; exact ⟨[], rfl, rfl⟩
      | cons hk _ ih =>
        cases hl with
        | cons hj hrest =>
          obtain ⟨out, h1, h2⟩ := ih (fun m hm => one m (List.mem_cons_of_mem _ hm)) _ hrest
          obtain ⟨r, hr, -, hu⟩ := one _ (by simp) _ hk
          refine ⟨r :: out, ?_, ?_⟩
          · rw [List.zip_cons_cons, List.mapM_cons, hr, h1]
            rfl
          · rw [List.map_cons, ← h2, hu _ hj]
    obtain ⟨out, h1, h2⟩ := key
    unfold table
    rw [hkeys, ha]
    show ((moves.zip keys).mapM (rowOf al r2z rehome data loc p) >>= _) = _
    rw [h1]
    show Except.ok _ = Except.ok _
    congr 1
    rw [h2]
    clear * -
    induction out with
    | nil => rfl
    | cons r t ih =>
      by_cases hx : r.x = 0
      · rw [List.filter_cons_of_neg (by simpa using hx), List.map_cons, if_pos hx, List.filterMap_cons]
        exact ih
      · rw [List.filter_cons_of_pos (by simpa using hx), List.map_cons, if_neg hx, List.filterMap_cons]
        exact congrArg _ ih

/-! ### The data base and the files -/

/-- The moves asked for: with arguments, those whose exposure and iteration are known and among the ones asked for. -/
def MoveAsked (ids iters : Option (List Item)) (m : Move δ) : Prop :=
  (ids = none ∨ ∃ n, m.expid = some n ∧ Asked ids n) ∧ (iters = none ∨ ∃ k, m.iter = some k ∧ Asked iters k)

theorem sqlIn_plain {α : Type} (a : Option (List Item)) (ha : Plain a) (f : α → Option ℤ) (l : List α) :
    ∃ t, sqlIn a f l = .ok t ∧ t.Sublist l ∧ ∀ m, m ∈ t ↔ m ∈ l ∧ (a = none ∨ ∃ n, f m = some n ∧ Asked a n) := by
  unfold sqlIn
  cases a with
  | none => exact ⟨l, rfl, List.Sublist.refl _, by simp⟩
  | some a =>
    have key : ∃ ns, a.mapM Item.sql = .ok ns ∧ ∀ n, n ∈ ns ↔ Asked (some a) n := by
      have : ∀ a : List Item, (∀ i ∈ a, ∃ n, i = .one n) → ∃ ns, a.mapM Item.sql = .ok ns ∧ ∀ n, n ∈ ns ↔ Asked (some a) n := by
        intro a
        induction a with
        | nil => intro _; exact ⟨[], rfl, by intro n; simp [Asked]⟩
        | cons i t ih =>
          intro h
          obtain ⟨k, rfl⟩ := h i (by simp)
          obtain ⟨ns, h1, h2⟩ := ih fun j hj => h j (List.mem_cons_of_mem _ hj)
          refine ⟨(k : ℤ) :: ns, ?_, ?_⟩
          · rw [List.mapM_cons, h1]; rfl
          · intro n
            rw [List.mem_cons, h2]
            unfold Asked
            simp
      exact this a fun i hi => ha a rfl i hi
    obtain ⟨ns, h1, h2⟩ := key
    refine ⟨_, by dsimp only; rw [h1]; rfl, List.filter_sublist, ?_⟩
    intro m
    rw [List.mem_filter]
    cases hf : f m with
    | none => simp
    | some n => simp [h2]

/-- What is written for a positioner of a petal: the rows of its moves asked for, in order, that have a measurement. -/
def Written [DecidableEq ι] (al : Model.Ptl2fp.Dict) (r2z : ℝ → ℝ) (db : Db ι δ) (ids iters : Option (List Item)) (rehome : List ℤ)
    (data : List (Option ι × Meas ι)) (q : ℤ × ι) (e : ι × List (Out δ)) : Prop :=
  e.1 = q.2 ∧ ∃ loc, Model.Dbutil.getPetalLoc q.1 = .ok loc ∧ (al loc.toNat).isSome ∧
    ∃ moves, moves.Sublist (db.moves q.1 q.2) ∧ (∀ m, m ∈ moves ↔ m ∈ db.moves q.1 q.2 ∧ MoveAsked ids iters m) ∧
    ∃ l, List.Forall₂ (Joined al r2z rehome data loc q.2) moves l ∧ e.2 = l.filterMap id

/-- The positioners in order: those of each petal, or the ones given, again for each petal. -/
def turns (db : Db ι δ) (only : Option (List ι)) (petals : List ℤ) : List (ℤ × ι) :=
  petals.flatMap fun a => ((only.getD (db.posids a)).map fun p => (a, p))

/-- All iterations have at most three digits. -/
def AllDigits (db : Db ι δ) (data : List (Option ι × Meas ι)) : Prop :=
  (∀ q ∈ data, 0 ≤ q.2.iter ∧ q.2.iter < 1000) ∧ ∀ a p, ∀ m ∈ db.moves a p, ∀ k, m.iter = some k → 0 ≤ k ∧ k < 1000

theorem onePositioner_ok [DecidableEq ι] {al : Model.Ptl2fp.Dict} {r2z : ℝ → ℝ} {db : Db ι δ} {ids iters : Option (List Item)}
    (h1 : Plain ids) (h2 : Plain iters) {rehome : List ℤ} {data : List (Option ι × Meas ι)} (hd : AllDigits db data) {petal loc : ℤ} {p : ι}
    (hloc : Model.Dbutil.getPetalLoc petal = .ok loc) {e : ι × List (Out δ)}
    (h : onePositioner al r2z db ids iters rehome data petal loc p = .ok e) : Written al r2z db ids iters rehome data (petal, p) e := by
  obtain ⟨t1, e1, s1, m1⟩ := sqlIn_plain ids h1 Move.expid (db.moves petal p)
  obtain ⟨t2, e2, s2, m2⟩ := sqlIn_plain iters h2 Move.iter t1
  have hdig : Digits data t2 := ⟨hd.1, fun m hm => hd.2 petal p m (s1.subset (s2.subset hm))⟩
  unfold onePositioner at h
  rw [e1] at h
  change (sqlIn iters Move.iter t1 >>= _) = _ at h
  rw [e2] at h
  obtain ⟨t0, ht0, h⟩ := bind_inv h
  injection ht0 with ht0
  subst ht0
  obtain ⟨t, ht, h⟩ := bind_inv h
  injection h with h
  subst h
  obtain ⟨hal, l, hl, rfl⟩ := (table_iff al r2z rehome data loc p t2 hdig t).1 ht
  refine ⟨rfl, loc, hloc, hal, t2, s2.trans s1, ?_, l, hl, rfl⟩
  intro m
  rw [m2, m1]
  unfold MoveAsked
  tauto

/-- **C81** With numbers (no ranges) as exposures and iterations, and iterations below 1000, one file is written for each positioner of each
petal, in order. It has one row for each move asked for whose exposure and iteration were measured for this positioner, in the order of
the data base, with the measured position (if measured several times, the last one), the petal coordinates of this position and the
flag for recently rehomed exposures. -/
theorem C81_rows [DecidableEq ι] (al : Model.Ptl2fp.Dict) (r2z : ℝ → ℝ) (db : Db ι δ) (only : Option (List ι)) (ids iters : Option (List Item))
    (h1 : Plain ids) (h2 : Plain iters) (rehome : List ℤ) (data : List (Option ι × Meas ι)) (hd : AllDigits db data) (petals : List ℤ)
    (w : List (ι × List (Out δ))) (h : petalLoop al r2z db only ids iters rehome data petals = .ok w) :
    List.Forall₂ (Written al r2z db ids iters rehome data) (turns db only petals) w := by
  unfold petalLoop at h
  obtain ⟨ws, hws, h⟩ := bind_inv h
  injection h with h
  subst h
  rw [Gpm.mapM_iff] at hws
  unfold turns
  clear * - hws h1 h2 hd
  induction hws with
  | nil => exact List.Forall₂.nil
  | @cons a b l1 l2 hab _ ih =>
    rw [List.flatMap_cons, List.flatten_cons]
    refine List.rel_append ?_ ih
    unfold onePetal at hab
    dsimp only at hab
    obtain ⟨loc, hloc, hab⟩ := bind_inv hab
    rw [Gpm.mapM_iff] at hab
    rw [List.forall₂_map_left_iff]
    have hab : List.Forall₂ (fun p q => onePositioner al r2z db ids iters rehome data a loc p = .ok q) (only.getD (db.posids a)) b := by
      cases only <;> exact hab
    exact hab.imp fun p q hq => onePositioner_ok h1 h2 hd hloc hq

/-- **C81** The loop works exactly if every petal is known, the alignment of each petal with a positioner is known, and all moves asked for
have an exposure and an iteration. -/
theorem C81_success [DecidableEq ι] (al : Model.Ptl2fp.Dict) (r2z : ℝ → ℝ) (db : Db ι δ) (only : Option (List ι)) (ids iters : Option (List Item))
    (h1 : Plain ids) (h2 : Plain iters) (rehome : List ℤ) (data : List (Option ι × Meas ι)) (hd : AllDigits db data) (petals : List ℤ) :
    (∃ w, petalLoop al r2z db only ids iters rehome data petals = .ok w) ↔
      ∀ a ∈ petals, ∃ loc, Model.Dbutil.getPetalLoc a = .ok loc ∧ ∀ p ∈ only.getD (db.posids a), (al loc.toNat).isSome ∧
        ∀ m ∈ db.moves a p, MoveAsked ids iters m → m.expid ≠ none ∧ m.iter ≠ none := by
  constructor
  · rintro ⟨w, h⟩ a ha
    have hrows := C81_rows al r2z db only ids iters h1 h2 rehome data hd petals w h
    unfold petalLoop at h
    obtain ⟨ws, hws, h⟩ := bind_inv h
    rw [Gpm.mapM_iff] at hws
    obtain ⟨t, -, ht⟩ := forall₂_mem hws ha
    unfold onePetal at ht
    dsimp only at ht
    obtain ⟨loc, hloc, -⟩ := bind_inv ht
    refine ⟨loc, hloc, ?_⟩
    intro p hp
    obtain ⟨e, -, -, loc', hloc', hal, moves, -, hm, l, hl, -⟩ := forall₂_mem hrows
      (show (a, p) ∈ turns db only petals from List.mem_flatMap.2 ⟨a, ha, List.mem_map.2 ⟨p, hp, rfl⟩⟩)
    rw [hloc] at hloc'
    injection hloc' with hloc'
    subst hloc'
    refine ⟨hal, ?_⟩
    intro m hmm hma
    obtain ⟨o, -, n, k, e1, e2, -⟩ := forall₂_mem hl ((hm m).2 ⟨hmm, hma⟩)
    rw [e1, e2]
    simp
  · intro h
    have : ∃ ws, petals.mapM (onePetal al r2z db only ids iters rehome data) = .ok ws := by
      apply mapM_ok_of
      intro a ha
      obtain ⟨loc, hloc, hp⟩ := h a ha
      unfold onePetal
      dsimp only
      rw [hloc]
      suffices hs : ∃ b, (only.getD (db.posids a)).mapM (onePositioner al r2z db ids iters rehome data a loc) = .ok b by
        obtain ⟨b, hb⟩ := hs
        refine ⟨b, ?_⟩
        clear * - hb
        cases only <;> exact hb
      show ∃ b, (only.getD (db.posids a)).mapM (onePositioner al r2z db ids iters rehome data a loc) = .ok b
      apply mapM_ok_of
      intro p hpp
      obtain ⟨hal, hm⟩ := hp p hpp
      obtain ⟨t1, e1, s1, m1⟩ := sqlIn_plain ids h1 Move.expid (db.moves a p)
      obtain ⟨t2, e2, s2, m2⟩ := sqlIn_plain iters h2 Move.iter t1
      unfold onePositioner
      rw [e1]
      change ∃ b, (sqlIn iters Move.iter t1 >>= _) = Except.ok b
      rw [e2]
      have ht : ∃ t, table al r2z rehome data loc p t2 = .ok t := by
        unfold table
        have hk : ∃ keys, t2.mapM moveKey = .ok keys := by
          apply mapM_ok_of
          intro m hmm
          have hma : MoveAsked ids iters m := by
            have := (m2 m).1 hmm
            have h' := (m1 m).1 this.1
            exact ⟨h'.2, this.2⟩
          obtain ⟨c1, c2⟩ := hm m (s1.subset (s2.subset hmm)) hma
          obtain ⟨n, hn⟩ := Option.ne_none_iff_exists'.1 c1
          obtain ⟨k, hk⟩ := Option.ne_none_iff_exists'.1 c2
          exact ⟨n * 1000 + k, by unfold moveKey; rw [hn, hk]⟩
        obtain ⟨keys, hk⟩ := hk
        obtain ⟨x, hx⟩ := lookup_isSome.2 hal
        rw [hk, hx]
        have : ∃ rows, (t2.zip keys).mapM (rowOf al r2z rehome data loc p) = .ok rows := by
          apply mapM_ok_of
          intro q _
          unfold rowOf
          dsimp only
          obtain ⟨v, hv⟩ := fp2ptl_some hal (withZ r2z (position (byKey data p) q.2).1 (position (byKey data p) q.2).2)
          rw [hv]
          exact ⟨_, rfl⟩
        obtain ⟨rows, hr⟩ := this
        show ∃ t, ((t2.zip keys).mapM (rowOf al r2z rehome data loc p) >>= _) = Except.ok t
        rw [hr]
        exact ⟨_, rfl⟩
      obtain ⟨t, ht⟩ := ht
      change ∃ b, (table al r2z rehome data loc p t2 >>= _) = Except.ok b
      rw [ht]
      exact ⟨_, rfl⟩
    obtain ⟨ws, hws⟩ := this
    unfold petalLoop
    rw [hws]
    exact ⟨_, rfl⟩

theorem content_iff [DecidableEq ι] (w : List (ι × List (Out δ))) (p : ι) (t : List (Out δ)) :
    content w p = some t ↔ ∃ a b, w = a ++ (p, t) :: b ∧ ∀ q ∈ b, q.1 ≠ p := by
  unfold content
  rw [fold_get Prod.fst Prod.snd w p [], List.getLast?_map]
  have := last_iff (fun r : ι × List (Out δ) => r.1 = p) w
  cases hl : (w.filter fun r => decide (r.1 = p)).getLast? with
  | none =>
    constructor
    · intro h; cases h
    · rintro ⟨a, b, h, hb⟩
      rw [(this (p, t)).2 ⟨rfl, a, b, h, hb⟩] at hl
      cases hl
  | some x =>
    obtain ⟨hx, a, b, hab, hb⟩ := (this x).1 hl
    constructor
    · intro h
      have h : x.2 = t := Option.some.inj h
      refine ⟨a, b, ?_, hb⟩
      rw [hab, ← h, ← hx]
    · rintro ⟨a', b', h, hb'⟩
      rw [(this (p, t)).2 ⟨rfl, a', b', h, hb'⟩] at hl
      injection hl with hl
      rw [← hl]
      rfl

/-- **C81** When no positioner comes twice, the file of each positioner is at the end the one written for it. -/
theorem C81_content [DecidableEq ι] (al : Model.Ptl2fp.Dict) (r2z : ℝ → ℝ) (db : Db ι δ) (only : Option (List ι)) (ids iters : Option (List Item))
    (h1 : Plain ids) (h2 : Plain iters) (rehome : List ℤ) (data : List (Option ι × Meas ι)) (hd : AllDigits db data) (petals : List ℤ)
    (w : List (ι × List (Out δ))) (h : petalLoop al r2z db only ids iters rehome data petals = .ok w)
    (hn : ((turns db only petals).map Prod.snd).Nodup) (q : ℤ × ι) (hq : q ∈ turns db only petals) :
    ∃ t, content w q.2 = some t ∧ Written al r2z db ids iters rehome data q (q.2, t) := by
  have hrows := C81_rows al r2z db only ids iters h1 h2 rehome data hd petals w h
  obtain ⟨e, he, hw⟩ := forall₂_mem hrows hq
  have hfst : w.map Prod.fst = (turns db only petals).map Prod.snd := by
    clear * - hrows
    generalize turns db only petals = ts at hrows
    induction hrows with
    | nil => rfl
    | cons h _ ih => rw [List.map_cons, List.map_cons, ih, h.1]
  obtain ⟨a, b, hab⟩ := List.append_of_mem he
  refine ⟨e.2, (content_iff w q.2 e.2).2 ⟨a, b, by rw [hab, ← hw.1], ?_⟩, ?_⟩
  · intro x hx hxe
    rw [← hfst, hab, List.map_append, List.map_cons, List.nodup_append] at hn
    have := (List.nodup_cons.1 hn.2.1).1
    apply this
    rw [hw.1, ← hxe]
    exact List.mem_map.2 ⟨x, hx, rfl⟩
  · rw [← hw.1]
    exact hw

/-- **C81** (finding) With `--pos-ids` and two petals, the file of a positioner of the first petal is written again for the second one: the
rows are lost. -/
theorem C81_overwritten [DecidableEq ι] (al : Model.Ptl2fp.Dict) (r2z : ℝ → ℝ) (db : Db ι δ) (p : ι) (ids iters : Option (List Item))
    (h1 : Plain ids) (h2 : Plain iters) (rehome : List ℤ) (data : List (Option ι × Meas ι)) (hd : AllDigits db data) (a b : ℤ)
    (w : List (ι × List (Out δ))) (h : petalLoop al r2z db (some [p]) ids iters rehome data [a, b] = .ok w) (hb : db.moves b p = []) :
    content w p = some [] := by
  have hrows := C81_rows al r2z db (some [p]) ids iters h1 h2 rehome data hd [a, b] w h
  have e : turns db (some [p]) [a, b] = [(a, p), (b, p)] := rfl
  rw [e] at hrows
  cases hrows with
  | cons ha hrest => cases hrest with
    | @cons _ x _ _ hx hnil =>
      rename_i y _
      cases hnil
      obtain ⟨k1, loc, -, -, moves, hs, -, l, hl, k2⟩ := hx
      rw [hb] at hs
      have := List.eq_nil_of_sublist_nil hs
      subst this
      cases hl
      rw [content_iff]
      refine ⟨[y], [], ?_, by simp⟩
      have : x = (p, []) := Prod.ext k1 k2
      rw [this]
      rfl

/-- **C81** (finding) A range `a-b` of exposures, which selects the images of the exposures from `a` to `b`, is a subtraction in the query:
no move of an exposure with a positive number is written, whatever was measured. -/
theorem C81_minus [DecidableEq ι] (al : Model.Ptl2fp.Dict) (r2z : ℝ → ℝ) (db : Db ι δ) (rehome : List ℤ) (data : List (Option ι × Meas ι))
    (a b : ℕ) (hab : a < b) (petal loc : ℤ) (p : ι) (hm : ∀ m ∈ db.moves petal p, ∀ n, m.expid = some n → 0 ≤ n) (e : ι × List (Out δ))
    (h : onePositioner al r2z db (some [.minus a b]) none rehome data petal loc p = .ok e) : e = (p, []) := by
  unfold onePositioner at h
  have hs : sqlIn (some [.minus a b]) Move.expid (db.moves petal p) = .ok [] := by
    unfold sqlIn
    dsimp only
    show Except.ok _ = _
    congr 1
    rw [List.filter_eq_nil_iff]
    intro m hmm
    cases hx : m.expid with
    | none => simp
    | some n =>
      have := hm m hmm n hx
      simp
      omega
  rw [hs] at h
  obtain ⟨m, hm', h⟩ := bind_inv h
  injection hm' with hm'
  subst hm'
  obtain ⟨m', hm'', h⟩ := bind_inv h
  injection hm'' with hm''
  subst hm''
  obtain ⟨t, ht, h⟩ := bind_inv h
  injection h with h
  rw [← h]
  unfold table at ht
  obtain ⟨keys, hk, ht⟩ := bind_inv ht
  obtain ⟨_, -, ht⟩ := bind_inv ht
  obtain ⟨rows, hr, ht⟩ := bind_inv ht
  injection ht with ht
  injection hr with hr
  rw [← ht, ← hr]
  rfl

/-- **C81** (finding) The other two ways of writing a range stop the script as soon as there is a positioner. -/
theorem C81_colon [DecidableEq ι] (al : Model.Ptl2fp.Dict) (r2z : ℝ → ℝ) (db : Db ι δ) (rehome : List ℤ) (data : List (Option ι × Meas ι))
    (a b : ℕ) (iters : Option (List Item)) (petal loc : ℤ) (p : ι) :
    onePositioner al r2z db (some [.colon a b]) iters rehome data petal loc p = .error .runtimeError ∧
    onePositioner al r2z db (some [.dots a b]) iters rehome data petal loc p = .error .runtimeError :=
  ⟨rfl, rfl⟩

/-- **C81** (finding) Without `--exposure-ids`, one move recorded without an exposure number stops the script. -/
theorem C81_null [DecidableEq ι] (al : Model.Ptl2fp.Dict) (r2z : ℝ → ℝ) (db : Db ι δ) (rehome : List ℤ) (data : List (Option ι × Meas ι))
    (petal loc : ℤ) (p : ι) (m : Move δ) (hm : m ∈ db.moves petal p) (hn : m.expid = none) :
    onePositioner al r2z db none none rehome data petal loc p = .error .typeError := by
  have key : ∀ l : List (Move δ), m ∈ l → l.mapM moveKey = .error .typeError := by
    intro l
    induction l with
    | nil => intro h; simp at h
    | cons x t ih =>
      intro h
      rw [List.mapM_cons]
      cases hx : moveKey x with
      | error e =>
        unfold moveKey at hx
        split at hx
        · cases hx
        · injection hx with hx; subst hx; rfl
      | ok k =>
        rcases List.mem_cons.1 h with rfl | h
        · unfold moveKey at hx
          rw [hn] at hx
          cases hx
        · rw [ih h]; rfl
  show (table al r2z rehome data loc p (db.moves petal p) >>= _) = _
  unfold table
  rw [key _ hm]
  rfl

/-- A run that satisfies the hypotheses: one positioner, one measured move and one that was not measured. -/
example : ∃ (al : Model.Ptl2fp.Dict) (db : Db ℕ Unit) (data : List (Option ℕ × Meas ℕ)) (w : List (ℕ × List (Out Unit))),
    AllDigits db data ∧ Plain (some [.one 5]) ∧ petalLoop al (fun _ => 0) db none (some [.one 5]) none [5] data [4] = .ok w ∧
    ((turns db none [4]).map Prod.snd).Nodup ∧ ∃ r, content w 7 = some [r] ∧ r.x = 1 ∧ r.y = 2 ∧ r.recent = 1 ∧ r.loc = 0 := by
  let al : Model.Ptl2fp.Dict := fun _ => some ⟨0, 0, 0, 0, 0, 0⟩
  let db : Db ℕ Unit := ⟨fun _ => [7], fun _ _ => [⟨some 5, some 0, ()⟩, ⟨some 5, some 1, ()⟩, ⟨some 6, some 0, ()⟩]⟩
  let data : List (Option ℕ × Meas ℕ) := [(some 7, ⟨⟨3, none, 1, 2⟩, 5, 0⟩), (some 8, ⟨⟨4, none, 3, 4⟩, 5, 1⟩)]
  have hd : AllDigits db data := by
    constructor
    · intro q hq
      simp only [data, List.mem_cons, List.not_mem_nil, or_false] at hq
      rcases hq with rfl | rfl <;> norm_num
    · intro a p m hm k hk
      simp only [db, List.mem_cons, List.not_mem_nil, or_false] at hm
      rcases hm with rfl | rfl | rfl <;> (injection hk with hk; omega)
  have hp : Plain (some [.one 5]) := by
    intro l hl i hi
    injection hl with hl
    subst hl
    simp only [List.mem_cons, List.not_mem_nil, or_false] at hi
    exact ⟨5, hi⟩
  have hp' : Plain none := by intro l hl; cases hl
  obtain ⟨w, hw⟩ := (C81_success al (fun _ => 0) db none (some [.one 5]) none hp hp' [5] data hd [4]).2 (by
    intro a ha
    simp only [List.mem_cons, List.not_mem_nil, or_false] at ha
    subst ha
    refine ⟨0, rfl, fun p _ => ⟨rfl, ?_⟩⟩
    intro m hm _
    simp only [db, List.mem_cons, List.not_mem_nil, or_false] at hm
    rcases hm with rfl | rfl | rfl <;> simp)
  have hn : ((turns db none [4]).map Prod.snd).Nodup := by simp [turns, db]
  refine ⟨al, db, data, w, hd, hp, hw, hn, ?_⟩
  have hwm : ∃ e, w = [(7, e)] ∧ ∃ r, e = [r] ∧ r.x = 1 ∧ r.y = 2 ∧ r.recent = 1 ∧ r.loc = 0 := by
    have e : petalLoop al (fun _ => 0) db none (some [.one 5]) none [5] data [4] =
        (do let v ← fp2ptl al 0 (withZ (fun _ => 0) 1 2)
            let v' ← fp2ptl al 0 (withZ (fun _ => 0) 0 0)
            return [((7 : ℕ), ([⟨⟨some 5, some 0, ()⟩, 0, 1, 1, 2, v⟩, ⟨⟨some 5, some 1, ()⟩, 0, 1, 0, 0, v'⟩] : List (Out Unit)).filter
              fun o => decide (o.x ≠ 0))]) := rfl
    rw [e] at hw
    obtain ⟨v1, -, hw⟩ := bind_inv hw
    obtain ⟨v2, -, hw⟩ := bind_inv hw
    injection hw with hw
    rw [← hw]
    refine ⟨_, rfl, ⟨⟨some 5, some 0, ()⟩, 0, 1, 1, 2, v1⟩, ?_, rfl, rfl, rfl, rfl⟩
    rw [List.filter_cons_of_pos (by simp), List.filter_cons_of_neg (by simp)]
    rfl
  obtain ⟨e, rfl, r, rfl, hr⟩ := hwm
  exact ⟨r, (content_iff _ _ _).2 ⟨[], [], rfl, by simp⟩, hr⟩

end Verif.Props.MovesFvc
