import Verif.Model.Spotmatch
import Verif.Lemmas.Sort
import Verif.Lemmas.Vec
import Mathlib.Tactic.Linarith
import Mathlib.Tactic.NormNum
import Mathlib.Tactic.FieldSimp
import Mathlib.Tactic.Ring

/-!
# C63: the wrapper of the spot matching program
-/

namespace Verif.Props.Spotmatch
open Verif.Py Verif.Model.Spotmatch
open Verif.Model.FindFiducials (Tx)

/-! ### Specification -/

/-- Mean of the metrology positions of the rows at a location, as a sum over the table. -/
noncomputable def meanAt (met : List Met) (loc : ℤ) : ℝ × ℝ :=
  let n : ℝ := met.countP fun m => m.loc = loc
  (((met.map fun m => if m.loc = loc then m.fp.1 else 0).sum) / n,
   ((met.map fun m => if m.loc = loc then m.fp.2 else 0).sum) / n)

/-- `l` lists, in increasing order and once each, the locations of the FIF and GIF rows. -/
def FidLocs (met : List Met) (l : List ℤ) : Prop :=
  l.Pairwise (· < ·) ∧ ∀ loc, loc ∈ l ↔
    ∃ m ∈ met, m.loc = loc ∧ (m.devType = "FIF".toList ∨ m.devType = "GIF".toList)

/-- Seven words read as a row. -/
def Parsed (env : Env) (w : List PyStr) (r : Row) : Prop :=
  ∃ a b c d e f v, w = [a, b, c, d, e, f, r.smType] ∧ env.toInt a = some r.loc ∧ env.toFloat b = some r.pix.1 ∧
    env.toFloat c = some r.pix.2 ∧ env.toFloat d = some v ∧ env.toFloat e = some r.flag ∧ env.toFloat f = some r.err

/-- `m` is the last row of the metrology with its location. -/
def LastAt (met : List Met) (m : Met) : Prop :=
  ∃ pre post, met = pre ++ m :: post ∧ ∀ m' ∈ post, m'.loc ≠ m.loc

/-- The device columns of a row. -/
def Labelled (env : Env) (r : Row) : Prop :=
  (r.loc < 0 → r.devType = "unknown".toList ∧ r.devId = "unknown".toList ∧ r.bus = "unknown".toList ∧
    r.devLoc = (if env.cols.devLoc then some (-1) else none) ∧
    r.petalLoc = (if env.cols.petalLoc then some (-1) else none) ∧
    r.petalId = (if env.cols.petalId then some (-1) else none)) ∧
  (0 ≤ r.loc → ∃ m, LastAt env.met m ∧ m.loc = r.loc ∧ r.devType = m.devType.take 7 ∧
    r.devId = (if env.cols.devId then m.devId.take 7 else "unknown".toList) ∧
    r.bus = (if env.cols.bus then m.bus.take 7 else "unknown".toList) ∧
    r.devLoc = (if env.cols.devLoc then some m.devLoc else none) ∧
    r.petalLoc = (if env.cols.petalLoc then some m.petalLoc else none) ∧
    r.petalId = (if env.cols.petalId then some m.petalId else none))

/-- Number of rows of type `s` at a location among the first `i`. -/
def typeBefore (s : PyStr) (rows : List Row) (loc : ℤ) (i : ℕ) : ℕ :=
  (rows.take i).countP fun r => r.loc = loc ∧ r.smType = s

/-! ### Lemmas -/

theorem mem_unique (l : List ℤ) (a : ℤ) : a ∈ unique l ↔ a ∈ l := by
  unfold unique; rw [Lemmas.mem_pySort]; simp

theorem nodup_unique (l : List ℤ) : (unique l).Nodup :=
  (Lemmas.perm_pySort id _).nodup_iff.2 (List.nodup_dedup l)

theorem lt_unique (l : List ℤ) : (unique l).Pairwise (· < ·) := by
  have h1 : (unique l).Pairwise (fun x y => x ≤ y) := Lemmas.sorted_pySort id _
  have h2 : (unique l).Pairwise (fun x y => x ≠ y) := nodup_unique l
  exact (h1.and h2).imp fun h => lt_of_le_of_ne h.1 h.2

theorem fidLocs (met : List Met) : FidLocs met (fidLocations met) := by
  refine ⟨lt_unique _, fun loc => ?_⟩
  unfold fidLocations
  rw [mem_unique]
  simp only [List.mem_map, List.mem_filter, isFid, Bool.or_eq_true, decide_eq_true_eq]
  constructor
  · rintro ⟨m, ⟨h1, h2⟩, rfl⟩; exact ⟨m, h1, rfl, h2⟩
  · rintro ⟨m, h1, rfl, h2⟩; exact ⟨m, ⟨h1, h2⟩, rfl⟩

theorem sum_filter (f : Met → ℝ) (p : Met → Bool) (l : List Met) :
    ((l.filter p).map f).sum = (l.map fun m => if p m then f m else 0).sum := by
  induction l with
  | nil => rfl
  | cons a l ih => by_cases h : p a <;> simp [List.filter_cons, h, ih]

theorem centre_eq (met : List Met) (loc : ℤ) : centre met loc = meanAt met loc := by
  unfold centre meanAt
  simp only [sum_filter, decide_eq_true_eq, List.countP_eq_length_filter]

theorem comp {α β γ : Type*} {R : α → β → Prop} {S : β → γ → Prop} {T : α → γ → Prop}
    (h : ∀ a b c, R a b → S b c → T a c) {l : List α} {m : List β} (h1 : List.Forall₂ R l m) :
    ∀ {n : List γ}, List.Forall₂ S m n → List.Forall₂ T l n := by
  induction h1 with
  | nil => intro n h2; cases h2; exact .nil
  | cons hr _ ih => intro n h2; cases h2 with | cons hs h3 => exact .cons (h _ _ _ hr hs) (ih h3)

theorem parse_forall (env : Env) {lines : List (List PyStr)} {o : List (Option Row)}
    (h : List.Forall₂ (fun w r => parseLine env w = .ok r) lines o) :
    List.Forall₂ (fun w r => parseLine env w = .ok (some r)) (lines.filter fun w => w.length = 7) (o.filterMap id) := by
  induction h with
  | nil => exact .nil
  | @cons w r l o h _ ih =>
    by_cases hw : w.length = 7
    · match w, hw with
      | [a, b, c, d, e, f, t], _ =>
        rw [List.filter_cons_of_pos (by simp)]
        have h' := h
        unfold parseLine at h'
        dsimp only at h'
        split at h'
        · cases h'; exact .cons h ih
        · cases h'
    · rw [List.filter_cons_of_neg (by simpa using hw)]
      have : r = none := by
        unfold parseLine at h
        split at h
        · exact absurd rfl hw
        · cases h; rfl
      subst this
      exact ih

theorem lookup_ok {met : List Met} {loc : ℤ} {m : Met} (h : lookup met loc = .ok m) : LastAt met m ∧ m.loc = loc := by
  unfold lookup at h
  induction met with
  | nil => simp at h
  | cons a met ih =>
    by_cases hl : (met.filter fun m => m.loc = loc) = []
    · by_cases ha : a.loc = loc
      · rw [List.filter_cons_of_pos (by simpa using ha), hl] at h
        simp only [List.getLast?_singleton, Except.ok.injEq] at h
        subst h
        refine ⟨⟨[], met, rfl, fun m' hm' hx => ?_⟩, ha⟩
        have : m' ∈ met.filter fun m => m.loc = loc := by simp [hm', hx, ha]
        rw [hl] at this; cases this
      · rw [List.filter_cons_of_neg (by simpa using ha), hl] at h
        simp at h
    · have : ((a :: met).filter fun m => m.loc = loc).getLast? = (met.filter fun m => m.loc = loc).getLast? := by
        rw [List.filter_cons]
        split
        · rw [List.getLast?_cons]
          cases h2 : (met.filter fun m => decide (m.loc = loc)) with
          | nil => exact absurd h2 hl
          | cons b c => simp [List.getLast?_cons]
        · rfl
      rw [this] at h
      obtain ⟨⟨pre, post, h1, h2⟩, h3⟩ := ih h
      exact ⟨⟨a :: pre, post, by rw [h1]; rfl, h2⟩, h3⟩

theorem lookup_error {met : List Met} {loc : ℤ} (h : ∀ m ∈ met, m.loc ≠ loc) : lookup met loc = .error .keyError := by
  unfold lookup
  have : (met.filter fun m => m.loc = loc) = [] := by
    rw [List.filter_eq_nil_iff]; intro m hm; simpa using h m hm
  rw [this]; rfl

theorem lookup_exists {met : List Met} {loc : ℤ} (h : ∃ m ∈ met, m.loc = loc) : ∃ m, lookup met loc = .ok m := by
  obtain ⟨m, h1, h2⟩ := h
  unfold lookup
  have : (met.filter fun m => m.loc = loc) ≠ [] := by
    intro hx
    have : m ∈ met.filter fun m => m.loc = loc := by simp [h1, h2]
    rw [hx] at this; cases this
  rw [List.getLast?_eq_getLast_of_ne_nil this]
  exact ⟨_, rfl⟩

/-- Row `r'` is `r` with another pinhole number. -/
def Same (r r' : Row) : Prop := ∃ p, r' = { r with pinhole := p }

theorem same_refl (r : Row) : Same r r := ⟨r.pinhole, rfl⟩

theorem same_trans (a b c : Row) (h : Same a b) (h' : Same b c) : Same a c := by
  obtain ⟨p, rfl⟩ := h; obtain ⟨q, rfl⟩ := h'; exact ⟨q, rfl⟩

theorem forall_refl (l : List Row) : List.Forall₂ Same l l := by
  induction l with
  | nil => exact .nil
  | cons a l ih => exact .cons (same_refl a) ih

theorem numberFrom_same (loc : ℤ) (l : List Row) : ∀ k, List.Forall₂ Same l (numberFrom loc k l) := by
  induction l with
  | nil => intro k; exact .nil
  | cons a l ih =>
    intro k
    unfold numberFrom
    split
    · exact .cons ⟨k, rfl⟩ (ih _)
    · exact .cons (same_refl a) (ih _)

theorem fold_same (locs : List ℤ) : ∀ l : List Row,
    List.Forall₂ Same l (locs.foldl (fun rs loc => numberFrom loc 10 rs) l) := by
  induction locs with
  | nil => exact forall_refl
  | cons a locs ih => intro l; exact comp same_trans (numberFrom_same a l 10) (ih _)

theorem mark_same (l : List Row) : List.Forall₂ Same l (markFiducials l) := by
  induction l with
  | nil => exact .nil
  | cons a l ih =>
    refine .cons ?_ ih
    dsimp only
    split
    · exact ⟨99, rfl⟩
    · exact same_refl a

theorem pins_same {l m : List Row} (h : List.Forall₂ Same l m) : ∀ loc i, typeBefore sPinhole m loc i = typeBefore sPinhole l loc i := by
  unfold typeBefore
  induction h with
  | nil => intros; rfl
  | cons hs _ ih =>
    intro loc i
    cases i with
    | zero => rfl
    | succ i =>
      obtain ⟨p, rfl⟩ := hs
      simp only [List.take_succ_cons, List.countP_cons, ih]

theorem numberFrom_get (loc : ℤ) (l : List Row) : ∀ (k : ℤ) (i : ℕ), (numberFrom loc k l)[i]? =
    l[i]?.map fun r => if r.loc = loc ∧ r.smType = sPinhole then { r with pinhole := k + typeBefore sPinhole l loc i } else r := by
  induction l with
  | nil => intro k i; rfl
  | cons a l ih =>
    intro k i
    unfold numberFrom
    by_cases ha : a.loc = loc ∧ a.smType = sPinhole
    · rw [if_pos (by simpa using ha)]
      cases i with
      | zero => simp only [List.getElem?_cons_zero, Option.map_some, if_pos ha]; simp [typeBefore]
      | succ i =>
        rw [List.getElem?_cons_succ, List.getElem?_cons_succ, ih]
        congr 1; funext r
        split
        · have : typeBefore sPinhole (a :: l) loc (i + 1) = typeBefore sPinhole l loc i + 1 := by
            simp only [typeBefore, List.take_succ_cons, List.countP_cons]; rw [if_pos (by simpa using ha)]
          rw [this]; push_cast; congr 1; ring
        · rfl
    · rw [if_neg (by simpa using ha)]
      cases i with
      | zero => simp only [List.getElem?_cons_zero, Option.map_some, if_neg ha]
      | succ i =>
        rw [List.getElem?_cons_succ, List.getElem?_cons_succ, ih]
        congr 1; funext r
        have : typeBefore sPinhole (a :: l) loc (i + 1) = typeBefore sPinhole l loc i := by
          simp only [typeBefore, List.take_succ_cons, List.countP_cons]; rw [if_neg (by simpa using ha)]; rfl
        rw [this]

theorem fold_get (locs : List ℤ) (hn : locs.Nodup) : ∀ (l : List Row) (i : ℕ),
    (locs.foldl (fun rs loc => numberFrom loc 10 rs) l)[i]? = l[i]?.map fun r =>
      if r.loc ∈ locs ∧ r.smType = sPinhole then { r with pinhole := 10 + typeBefore sPinhole l r.loc i } else r := by
  induction locs with
  | nil => intro l i; simp
  | cons a locs ih =>
    intro l i
    rw [List.nodup_cons] at hn
    rw [List.foldl_cons, ih hn.2, numberFrom_get, Option.map_map]
    congr 1; funext r
    simp only [Function.comp_apply, pins_same (numberFrom_same a l 10)]
    by_cases h1 : r.smType = sPinhole
    · by_cases h2 : r.loc = a
      · have h3 : r.loc ∉ locs := by rw [h2]; exact hn.1
        simp only [h1, h2, and_true, if_true, List.mem_cons, true_or]
        rw [if_neg (by rw [← h2]; exact h3)]
      · simp [h1, h2]
    · have h2 : ¬ (r.loc = a ∧ r.smType = sPinhole) := fun h => h1 h.2
      simp only [if_neg h2]
      rw [if_neg (fun h => h1 h.2), if_neg (fun h => h1 h.2)]

theorem pinholeIds_same (l : List Row) : List.Forall₂ Same l (pinholeIds l) :=
  comp same_trans (mark_same l) (fold_same _ _)

theorem pinholeIds_get (l : List Row) (i : ℕ) (r' : Row) (h : (pinholeIds l)[i]? = some r') (h0 : ∀ r ∈ l, r.pinhole = 0) :
    ∃ r, l[i]? = some r ∧ Same r r' ∧
    (r.smType = sFiducial → r'.pinhole = 99) ∧
    (r.smType = sPinhole → (∃ q ∈ l, q.smType = sFiducial ∧ q.loc = r.loc) →
      r'.pinhole = 10 + typeBefore sPinhole l r.loc i) ∧
    (r.smType = sPinhole → (¬ ∃ q ∈ l, q.smType = sFiducial ∧ q.loc = r.loc) → r'.pinhole = 0) ∧
    (r.smType ≠ sFiducial → r.smType ≠ sPinhole → r'.pinhole = 0) := by
  unfold pinholeIds at h
  dsimp only at h
  rw [fold_get _ (nodup_unique _)] at h
  unfold markFiducials at h
  rw [List.getElem?_map] at h
  cases hr : l[i]? with
  | none => rw [hr] at h; simp at h
  | some r =>
    rw [hr] at h
    have hz : r.pinhole = 0 := h0 r (List.mem_of_getElem? hr)
    have hm : ∀ x, x ∈ unique ((l.filter fun r => r.smType = sFiducial).map (·.loc)) ↔
        ∃ q ∈ l, q.smType = sFiducial ∧ q.loc = x := by
      intro x; rw [mem_unique]; simp only [List.mem_map, List.mem_filter, decide_eq_true_eq]
      constructor
      · rintro ⟨q, ⟨a, b⟩, c⟩; exact ⟨q, a, b, c⟩
      · rintro ⟨q, a, b, c⟩; exact ⟨q, ⟨a, b⟩, c⟩
    refine ⟨r, rfl, ?_⟩
    simp only [Option.map_some, Option.some.injEq] at h
    have hp := pins_same (mark_same l)
    unfold markFiducials at hp
    by_cases hf : r.smType = sFiducial
    · have hne : r.smType ≠ sPinhole := by rw [hf]; decide
      simp only [if_pos hf] at h
      rw [if_neg (fun hx => hne hx.2)] at h
      subst h
      exact ⟨⟨99, rfl⟩, fun _ => rfl, fun h => absurd h hne, fun h => absurd h hne, fun h => absurd hf h⟩
    · simp only [if_neg hf, hm, hp] at h
      by_cases hq : r.smType = sPinhole
      · by_cases hx : ∃ q ∈ l, q.smType = sFiducial ∧ q.loc = r.loc
        · rw [if_pos ⟨hx, hq⟩] at h; subst h
          exact ⟨⟨_, rfl⟩, fun h => absurd h hf, fun _ _ => rfl, fun _ h => absurd hx h, fun _ h => absurd hq h⟩
        · rw [if_neg (fun h => hx h.1)] at h; subst h
          exact ⟨same_refl _, fun h => absurd h hf, fun _ h => absurd h hx, fun _ _ => hz, fun _ _ => hz⟩
      · rw [if_neg (fun h => hq h.2)] at h; subst h
        exact ⟨same_refl _, fun h => absurd h hf, fun h => absurd h hq, fun h => absurd h hq, fun _ _ => hz⟩

/-- A row as it stands before the numbering of pinholes. -/
def Pre (env : Env) (w : List PyStr) (r : Row) : Prop := Parsed env w r ∧ Labelled env r ∧ r.pinhole = 0

theorem pre_of (env : Env) (w : List PyStr) (r r' : Row) (h1 : parseLine env w = .ok (some r))
    (h2 : addInfo env r = .ok r') : Pre env w r' := by
  unfold parseLine at h1
  split at h1
  · split at h1
    · next a b c d e f t _ _ _ _ _ _ loc x y v fl er ha hb hc hd he hf =>
      cases h1
      unfold addInfo at h2
      dsimp only at h2
      split at h2
      · next hl =>
        split at h2
        · cases h2
        · next m hm =>
          cases h2
          obtain ⟨h3, h4⟩ := lookup_ok hm
          refine ⟨⟨a, b, c, d, e, f, v, rfl, ha, hb, hc, hd, he, hf⟩, ⟨fun h => absurd h (not_lt.2 hl), fun _ => ⟨m, h3, h4, rfl, ?_⟩⟩, rfl⟩
          exact ⟨rfl, rfl, rfl, rfl, rfl⟩
      · next hl =>
        cases h2
        exact ⟨⟨a, b, c, d, e, f, v, rfl, ha, hb, hc, hd, he, hf⟩,
          ⟨fun _ => ⟨rfl, rfl, rfl, rfl, rfl, rfl⟩, fun h => absurd h hl⟩, rfl⟩
    · cases h1
  · cases h1

theorem readCenters_pre (env : Env) (lines : List (List PyStr)) (rows : List Row) (h : readCenters env lines = .ok rows) :
    ∃ l, List.Forall₂ (Pre env) (lines.filter fun w => w.length = 7) l ∧ rows = pinholeIds l := by
  unfold readCenters at h
  cases h1 : lines.mapM (parseLine env) with
  | error e => rw [h1] at h; cases h
  | ok o =>
    rw [h1] at h
    cases h2 : (o.filterMap id).mapM (addInfo env) with
    | error e =>
      have h' : ((o.filterMap id).mapM (addInfo env) >>= fun r => pure (pinholeIds r)) = .ok rows := h
      rw [h2] at h'; cases h'
    | ok l =>
      have h' : ((o.filterMap id).mapM (addInfo env) >>= fun r => pure (pinholeIds r)) = .ok rows := h
      rw [h2] at h'
      have h'' : (Except.ok (pinholeIds l) : Except PyErr _) = .ok rows := h'
      cases h''
      exact ⟨l, comp (pre_of env) (parse_forall env (Lemmas.mapM_inv _ _ _ h1)) (Lemmas.mapM_inv _ _ _ h2), rfl⟩

theorem forall_mem {α β : Type*} {R : α → β → Prop} {l : List α} {m : List β} (h : List.Forall₂ R l m) :
    ∀ b ∈ m, ∃ a ∈ l, R a b := by
  induction h with
  | nil => intro b hb; cases hb
  | cons hr _ ih =>
    intro b hb
    rcases List.mem_cons.1 hb with rfl | hb
    · exact ⟨_, by simp, hr⟩
    · obtain ⟨a, h1, h2⟩ := ih b hb; exact ⟨a, by simp [h1], h2⟩

/-! ### Theorems -/

/-- **C63** The program is given the spots numbered from one in the order of the arrays. -/
theorem C63_measured (x y : List ℝ) :
    (x.length = y.length → ∃ m, measuredFile x y = .ok m ∧ m.length = x.length ∧
      ∀ i (h : i < x.length) (h' : i < y.length), m[i]? = some (x[i], y[i], i + 1)) ∧
    (x.length ≠ y.length → measuredFile x y = .error .assertionError) := by
  unfold measuredFile
  refine ⟨fun h => ?_, fun h => by rw [if_neg h]⟩
  rw [if_pos h]
  refine ⟨_, rfl, by simp, fun i h1 h2 => ?_⟩
  simp [h1, h2]

example : ([1, 2] : List ℝ).length = ([3, 4] : List ℝ).length ∧ ([1] : List ℝ).length ≠ ([] : List ℝ).length := by simp

/-- **C63** The targets are the expected spots in order (the positioners of the metrology when none
are given), then the mean position of the metrology rows of each fiducial location in increasing
order, all in pixels through the given transform (the default one if none is given). -/
theorem C63_targets (env : Env) (m : List (ℝ × ℝ × ℕ)) (ex : Option (List Target)) (v : ℤ) (rad : ℝ) (t : Option Tx) :
    ∃ l, FidLocs env.met l ∧ (inputOf env m ex v rad t).measured = m ∧ (inputOf env m ex v rad t).radius = rad ∧
      (inputOf env m ex v rad t).targets =
        (match ex with
          | some ts => ts.map fun s => ⟨s.loc, (match t with | some t => t.toPix | none => env.default.toPix) s.fp, 4⟩
          | none => (env.met.filter fun m => m.devType = "POS".toList).map fun s =>
              ⟨s.loc, (match t with | some t => t.toPix | none => env.default.toPix) s.fp, 4⟩) ++
        l.map fun loc => ⟨loc, (match t with | some t => t.toPix | none => env.default.toPix) (meanAt env.met loc), 8⟩ := by
  refine ⟨fidLocations env.met, fidLocs _, rfl, rfl, ?_⟩
  unfold inputOf targetsFile positioners
  simp only [centre_eq]
  cases ex <;> cases t <;> simp [Function.comp_def]

/-- **C63** Each fiducial has a first line for its centre and one line for each of its pinholes
numbered up to four, giving the offset from the mean of all its metrology rows. -/
theorem C63_fiducial_config (env : Env) (m : List (ℝ × ℝ × ℕ)) (ex : Option (List Target)) (v : ℤ) (rad : ℝ)
    (t : Option Tx) : ∃ l, FidLocs env.met l ∧ (inputOf env m ex v rad t).fiducials = (l.map fun loc =>
      FidLine.mk loc (0, 0) 0 8 :: (env.met.filter fun m => m.loc = loc ∧ m.pinhole ≤ 4).map fun m =>
        FidLine.mk loc (m.fp - meanAt env.met loc) m.pinhole 2).flatten := by
  refine ⟨fidLocations env.met, fidLocs _, ?_⟩
  unfold inputOf fiducialConfig
  dsimp only
  rw [← List.flatMap_def]
  simp only [List.filter_filter, centre_eq]
  congr 1; funext loc
  congr 2
  congr 1; funext m
  rw [Bool.decide_and, Bool.and_comm]

/-- The offsets of a fiducial add up to zero. -/
theorem C63_offsets_zero (met : List Met) (loc : ℤ) (h : ∃ m ∈ met, m.loc = loc) :
    ((met.filter fun m => m.loc = loc).map fun m => m.fp - meanAt met loc).sum = 0 := by
  rw [← centre_eq]
  unfold centre
  generalize hr : (met.filter fun m => decide (m.loc = loc)) = r
  have hne : r ≠ [] := by
    obtain ⟨m, h1, h2⟩ := h
    intro hx
    have : m ∈ met.filter fun m => m.loc = loc := by simp [h1, h2]
    rw [hr, hx] at this; cases this
  have hl : (r.length : ℝ) ≠ 0 := by simpa using hne
  have key : ∀ (c : ℝ × ℝ) (l : List Met), (l.map fun m => m.fp - c).sum =
      ((l.map (·.fp.1)).sum - l.length * c.1, (l.map (·.fp.2)).sum - l.length * c.2) := by
    intro c l
    induction l with
    | nil => ext <;> simp
    | cons a l ih =>
      simp only [List.map_cons, List.sum_cons, ih, List.length_cons]
      ext <;> simp <;> ring
  dsimp only
  rw [key]
  ext
  · simp; field_simp; ring
  · simp; field_simp; ring

/-- **C63** For a transform that is affine around the middle of the image the pixel scale given to
the program is the square root of the absolute determinant. -/
theorem C63_pixel_scale (t : Tx) (a b c d e f : ℝ) (h : ∀ p, t.toFp p = (a * p.1 + b * p.2 + e, c * p.1 + d * p.2 + f)) :
    pixelScale t = Real.sqrt |a * d - b * c| := by
  unfold pixelScale
  simp only [h]
  congr 2
  ring_nf

/-- The reach given to the program is 6.6 mm in pixels. -/
theorem C63_reach (env : Env) (m : List (ℝ × ℝ × ℕ)) (ex : Option (List Target)) (v : ℤ) (rad : ℝ) (t : Tx)
    (h : 0 < pixelScale t) : ∃ r, (inputOf env m ex v rad (some t)).reach = some r ∧
      (inputOf env m ex v rad (some t)).scale = pixelScale t ∧ r * pixelScale t = 6.6 := by
  refine ⟨_, rfl, rfl, ?_⟩
  simp only [Option.getD_some]
  field_simp

/-- **C63 disagreement**: pinhole references and device centres are written with the default
transform whatever transform is given. -/
theorem C63_default_transform (env : Env) (m : List (ℝ × ℝ × ℕ)) (ex : Option (List Target)) (v : ℤ) (rad : ℝ)
    (t : Option Tx) : ∃ l, FidLocs env.met l ∧ (inputOf env m ex v rad t).centers =
      (((env.met.filter fun m => m.devType = "POS".toList).map fun s => PosLine.mk s.loc (env.default.toPix s.fp) 4) ++
        l.map fun loc => ⟨loc, env.default.toPix (meanAt env.met loc), 8⟩) ∧
    (inputOf env m ex v rad t).references =
      ((env.met.filter fun m => (m.devType = "FIF".toList ∨ m.devType = "GIF".toList) ∧ 1 ≤ m.pinhole ∧ m.pinhole ≤ 4).map
        fun m => PosLine.mk m.loc (env.default.toPix m.fp)
          (if m.pinhole = 1 then 515 else if m.pinhole = 2 then 1027 else if m.pinhole = 3 then 259 else 771)) := by
  refine ⟨fidLocations env.met, fidLocs _, ?_, ?_⟩
  · unfold inputOf deviceCentersFile targetsFile positioners
    simp [centre_eq, Function.comp_def]
  · unfold inputOf referenceFile
    simp only [Option.getD_none]
    generalize env.met = met
    induction met with
    | nil => rfl
    | cons a l ih =>
      by_cases h1 : a.devType = "FIF".toList ∨ a.devType = "GIF".toList
      · rw [List.filter_cons_of_pos (by simpa [isFid] using h1), List.filterMap_cons]
        by_cases h2 : 1 ≤ a.pinhole ∧ a.pinhole ≤ 4
        · rw [List.filter_cons_of_pos (by simpa using ⟨h1, h2⟩), List.map_cons, ← ih]
          obtain ⟨h3, h4⟩ := h2
          have : a.pinhole = 1 ∨ a.pinhole = 2 ∨ a.pinhole = 3 ∨ a.pinhole = 4 := by omega
          rcases this with h | h | h | h <;> simp [h, refNumber, Dict.get?]
        · rw [List.filter_cons_of_neg (by simp; intro _ h; by_contra h'; exact h2 ⟨h, by omega⟩), ← ih]
          have : refNumber.get? a.pinhole = none := by
            have h3 : a.pinhole ≠ 1 := by omega
            have h4 : a.pinhole ≠ 2 := by omega
            have h5 : a.pinhole ≠ 3 := by omega
            have h6 : a.pinhole ≠ 4 := by omega
            simp [refNumber, Dict.get?, h3.symm, h4.symm, h5.symm, h6.symm]
          rw [this]; rfl
      · rw [List.filter_cons_of_neg (by simpa [isFid] using h1), List.filter_cons_of_neg (by simp only [decide_eq_true_eq]; exact fun h => h1 h.1), ih]

/-- **C63** A table is returned exactly after a successful run: the program is in the path, the
arrays have the same length and the exit status is zero, or the program rejected the option
`-positioner_reach` and succeeded without it.  Otherwise an exception tells the reason. -/
theorem C63_failure (env : Env) (x y : List ℝ) (ex : Option (List Target)) (v : ℤ) (rad : ℝ) (t : Option Tx)
    (old : Option (List (List PyStr))) :
    (env.inPath = false → (spotmatch env x y ex v rad t old).1 = .error .runtimeError) ∧
    (env.inPath = true → x.length ≠ y.length → (spotmatch env x y ex v rad t old).1 = .error .assertionError) ∧
    (∀ m, env.inPath = true → measuredFile x y = .ok m →
      (env.prog (inputOf env m ex v rad t)).status ≠ 0 →
      (pyIn oldVersion (env.prog (inputOf env m ex v rad t)).output = false ∨
        (env.prog { inputOf env m ex v rad t with reach := none }).status ≠ 0) →
      (spotmatch env x y ex v rad t old).1 = .error .runtimeError) ∧
    (∀ m lines, env.inPath = true → measuredFile x y = .ok m →
      (env.prog (inputOf env m ex v rad t)).status = 0 → (env.prog (inputOf env m ex v rad t)).file = some lines →
      spotmatch env x y ex v rad t old = (readCenters env lines, some lines)) ∧
    (∀ m lines, env.inPath = true → measuredFile x y = .ok m →
      (env.prog (inputOf env m ex v rad t)).status ≠ 0 →
      pyIn oldVersion (env.prog (inputOf env m ex v rad t)).output = true →
      (env.prog { inputOf env m ex v rad t with reach := none }).status = 0 →
      (env.prog { inputOf env m ex v rad t with reach := none }).file = some lines →
      spotmatch env x y ex v rad t old = (readCenters env lines, some lines)) := by
  refine ⟨fun h => ?_, fun h hl => ?_, fun m h hm hs ho => ?_, fun m lines h hm hs hf => ?_, fun m lines h hm hs ho hs2 hf => ?_⟩
  · unfold spotmatch; rw [if_pos h]
  · unfold spotmatch; rw [if_neg (by simp [h]), (C63_measured x y).2 hl]
  · unfold spotmatch; rw [if_neg (by simp [h]), hm]
    dsimp only
    unfold runProg
    dsimp only
    rcases ho with ho | ho
    · have : ¬ ((env.prog (inputOf env m ex v rad t)).status ≠ 0 ∧
          pyIn oldVersion (env.prog (inputOf env m ex v rad t)).output = true) := by simp [ho]
      simp only [if_neg this, if_pos hs]
    · by_cases h1 : (env.prog (inputOf env m ex v rad t)).status ≠ 0 ∧
          pyIn oldVersion (env.prog (inputOf env m ex v rad t)).output = true
      · simp only [if_pos h1, if_pos ho]
      · simp only [if_neg h1, if_pos hs]
  · unfold spotmatch; rw [if_neg (by simp [h]), hm]
    dsimp only
    unfold runProg
    dsimp only
    rw [if_neg (by simp [hs]), if_neg (by simp [hs])]
    simp [hf]
  · unfold spotmatch; rw [if_neg (by simp [h]), hm]
    dsimp only
    unfold runProg
    dsimp only
    have h1 : (env.prog (inputOf env m ex v rad t)).status ≠ 0 ∧
          pyIn oldVersion (env.prog (inputOf env m ex v rad t)).output = true := ⟨hs, ho⟩
    dsimp only at hs2 hf
    simp only [if_pos h1]
    rw [if_neg (by simp [hs2])]
    simp [hf]

/-- **C63** The table has one row for each line of seven words of the file, in order, with the
numbers of the line; rows with a location carry the description of the last metrology row there
(texts cut to seven characters), others are marked unknown; fiducial centres have pinhole number 99,
pinholes of a location with a centre 10, 11, ... in order, all other rows 0. -/
theorem C63_result (env : Env) (lines : List (List PyStr)) (rows : List Row) (h : readCenters env lines = .ok rows) :
    List.Forall₂ (fun w r => Parsed env w r ∧ Labelled env r) (lines.filter fun w => w.length = 7) rows ∧
    ∀ i r, rows[i]? = some r →
      (r.smType = "fiducial".toList → r.pinhole = 99) ∧
      (r.smType = "pinhole".toList → (∃ q ∈ rows, q.smType = "fiducial".toList ∧ q.loc = r.loc) →
        r.pinhole = 10 + (typeBefore "pinhole".toList rows r.loc i : ℤ)) ∧
      (r.smType = "pinhole".toList → (¬ ∃ q ∈ rows, q.smType = "fiducial".toList ∧ q.loc = r.loc) → r.pinhole = 0) ∧
      (r.smType ≠ "fiducial".toList → r.smType ≠ "pinhole".toList → r.pinhole = 0) := by
  obtain ⟨l, h1, rfl⟩ := readCenters_pre env lines rows h
  have hs := pinholeIds_same l
  have hex : ∀ x, (∃ q ∈ pinholeIds l, q.smType = "fiducial".toList ∧ q.loc = x) ↔
      ∃ q ∈ l, q.smType = "fiducial".toList ∧ q.loc = x := by
    intro x
    constructor
    · rintro ⟨q, hq, h2, h3⟩
      obtain ⟨a, ha, p, rfl⟩ := forall_mem hs q hq
      exact ⟨a, ha, h2, h3⟩
    · rintro ⟨q, hq, h2, h3⟩
      obtain ⟨a, ha, p, rfl⟩ := forall_mem hs.flip q hq
      exact ⟨_, ha, h2, h3⟩
  refine ⟨comp ?_ h1 hs, fun i r hr => ?_⟩
  · rintro w r r' ⟨⟨a, b, c, d, e, f, v, hw, h2⟩, h3, _⟩ ⟨p, rfl⟩
    exact ⟨⟨a, b, c, d, e, f, v, hw, h2⟩, h3⟩
  · have h0 : ∀ r ∈ l, r.pinhole = 0 := fun r hr => by
      obtain ⟨a, _, h2⟩ := forall_mem h1 r hr; exact h2.2.2
    obtain ⟨q, hq, ⟨p, rfl⟩, h2, h3, h4, h5⟩ := pinholeIds_get l i r hr h0
    have h6 := pins_same hs q.loc i
    refine ⟨h2, fun a b => ?_, fun a b => h4 a fun c => b ((hex _).2 c), h5⟩
    exact (h3 a ((hex _).1 b)).trans (by rw [← h6]; rfl)

/-- Lines of other lengths are ignored: a file without a line of seven words gives an empty table. -/
theorem C63_other_lines (env : Env) (lines : List (List PyStr)) (h : ∀ w ∈ lines, w.length ≠ 7) :
    readCenters env lines = .ok [] := by
  have h1 : lines.mapM (parseLine env) = .ok (lines.map fun _ => none) := by
    apply Lemmas.mapM_ok
    intro w hw
    unfold parseLine
    split
    · exact absurd rfl (h _ hw)
    · rfl
  have h2 : ((lines.map fun _ => (none : Option Row)).filterMap id) = [] := by
    induction lines with
    | nil => rfl
    | cons a l ih => simp
  unfold readCenters
  rw [h1]
  show (((lines.map fun _ => (none : Option Row)).filterMap id).mapM (addInfo env) >>= fun r => pure (pinholeIds r)) = _
  rw [h2]
  rfl

/-- **C63 disagreement**: when the program succeeds without writing its file, the call returns the
result of an earlier call. -/
theorem C63_stale (env : Env) (x y : List ℝ) (ex : Option (List Target)) (v : ℤ) (rad : ℝ) (t : Option Tx)
    (old : Option (List (List PyStr))) (m : List (ℝ × ℝ × ℕ)) (h : env.inPath = true) (hm : measuredFile x y = .ok m)
    (hs : (env.prog (inputOf env m ex v rad t)).status = 0) (hf : (env.prog (inputOf env m ex v rad t)).file = none) :
    (spotmatch env x y ex v rad t old).1 =
      match old with
      | some lines => readCenters env lines
      | none => .error .fileNotFound := by
  unfold spotmatch; rw [if_neg (by simp [h]), hm]
  dsimp only
  unfold runProg
  dsimp only
  rw [if_neg (by simp [hs]), if_neg (by simp [hs])]
  cases old <;> simp [hf]

/-- A location that the metrology does not have stops the reading. -/
theorem C63_unknown_location (env : Env) (lines : List (List PyStr)) (rows : List Row)
    (h : readCenters env lines = .ok rows) (r : Row) (hr : r ∈ rows) (h0 : 0 ≤ r.loc) : ∃ m ∈ env.met, m.loc = r.loc := by
  obtain ⟨w, _, _, h2⟩ := forall_mem (C63_result env lines rows h).1 r hr
  obtain ⟨m, ⟨pre, post, hp, _⟩, h3, _⟩ := h2.2 h0
  exact ⟨m, by rw [hp]; simp, h3⟩

/-! ### A concrete environment -/

/-- Words used below: "5" and "0" only. -/
def num (s : PyStr) : Option ℤ := if s = ['5'] then some 5 else if s = ['0'] then some 0 else none

noncomputable def demo (prog : Input → Outcome) : Env where
  inPath := true
  prog := prog
  met := [⟨"FIF".toList, 5, 1, (1, 0), "P123456789".toList, "can10".toList, 5, 0, 0⟩,
          ⟨"FIF".toList, 5, 2, (3, 0), "P123456789".toList, "can10".toList, 5, 0, 0⟩]
  cols := ⟨true, true, true, true, true⟩
  default := ⟨id, id⟩
  toInt := num
  toFloat := fun s => (num s).map fun n => (n : ℝ)

def demoLine (t : PyStr) : List PyStr := [['5'], ['0'], ['0'], ['0'], ['0'], ['0'], t]

/-- **C63 disagreement**: a device identifier of more than seven characters is cut, and a pinhole
without centre row gets number 0, which the documentation reserves for positioners. -/
theorem C63_truncated (prog : Input → Outcome) : ∃ r, readCenters (demo prog) [demoLine "pinhole".toList] = .ok [r] ∧
    r.devId = "P123456".toList ∧ r.smType = "pinhole".toList ∧ r.devType = "FIF".toList ∧ r.pinhole = 0 := by
  refine ⟨_, rfl, ?_, ?_, ?_, ?_⟩ <;> rfl

/-- A file with a centre and two pinholes. -/
example (prog : Input → Outcome) : ∃ rows, readCenters (demo prog) [demoLine "pinhole".toList, ["#".toList],
    demoLine "fiducial".toList, demoLine "pinhole".toList] = .ok rows ∧ rows.map (·.pinhole) = [10, 99, 11] :=
  ⟨_, rfl, rfl⟩

/-- The hypotheses of `C63_failure` and `C63_stale` are met. -/
example : ∃ (env : Env) (m : List (ℝ × ℝ × ℕ)), env.inPath = true ∧ measuredFile [1] [2] = .ok m ∧
    (env.prog (inputOf env m none 0 70 none)).status = 0 ∧ (env.prog (inputOf env m none 0 70 none)).file = none :=
  ⟨demo fun _ => ⟨0, [], none⟩, _, rfl, rfl, rfl, rfl⟩

example : ∃ (env : Env) (m : List (ℝ × ℝ × ℕ)), env.inPath = true ∧ measuredFile [1] [2] = .ok m ∧
    (env.prog (inputOf env m none 0 70 none)).status ≠ 0 ∧
    pyIn oldVersion (env.prog (inputOf env m none 0 70 none)).output = true ∧
    (env.prog { inputOf env m none 0 70 none with reach := none }).status = 0 :=
  ⟨demo fun i => if i.reach.isSome then ⟨1, oldVersion, none⟩ else ⟨0, [], none⟩, _, rfl, rfl, by
    simp [demo, inputOf], by simp [demo, inputOf]; decide, by simp [demo]⟩

example : (0 : ℝ) < pixelScale ⟨id, id⟩ := by
  rw [C63_pixel_scale ⟨id, id⟩ 1 0 0 1 0 0 (fun p => by simp)]; norm_num

/-- The given transform does make a difference to the targets, not to the device centres. -/
example : ∃ (env : Env) (t : Tx) (m : List (ℝ × ℝ × ℕ)), (inputOf env m none 0 70 (some t)).targets ≠ (inputOf env m none 0 70 none).targets ∧
    (inputOf env m none 0 70 (some t)).centers = (inputOf env m none 0 70 none).centers := by
  refine ⟨demo fun _ => ⟨0, [], none⟩, ⟨id, fun p => (p.1 + 1, p.2)⟩, [], ?_, rfl⟩
  obtain ⟨l, h1, _, _, h2⟩ := C63_targets (demo fun _ => ⟨0, [], none⟩) [] none 0 70 (some ⟨id, fun p => (p.1 + 1, p.2)⟩)
  obtain ⟨l', h1', _, _, h2'⟩ := C63_targets (demo fun _ => ⟨0, [], none⟩) [] none 0 70 none
  rw [h2, h2']
  have hp : ((demo fun _ => ⟨0, [], none⟩).met.filter fun m => m.devType = "POS".toList) = [] := by decide +kernel
  have h5 : (5 : ℤ) ∈ l := (h1.2 5).2 ⟨_, List.mem_cons_self, rfl, Or.inl rfl⟩
  intro hx
  simp only [hp, List.map_nil, List.nil_append] at hx
  have h6 : PosLine.mk 5 ((meanAt (demo fun _ => ⟨0, [], none⟩).met 5).1 + 1, (meanAt (demo fun _ => ⟨0, [], none⟩).met 5).2) 8 ∈
      l'.map fun loc => PosLine.mk loc ((demo fun _ => ⟨0, [], none⟩).default.toPix (meanAt (demo fun _ => ⟨0, [], none⟩).met loc)) 8 := by
    rw [← hx]; exact List.mem_map.2 ⟨5, h5, rfl⟩
  obtain ⟨loc, _, h7⟩ := List.mem_map.1 h6
  have h8 : loc = 5 := congrArg PosLine.loc h7
  subst h8
  have h9 := congrArg (fun p => (PosLine.pix p).1) h7
  simp [demo] at h9

end Verif.Props.Spotmatch
