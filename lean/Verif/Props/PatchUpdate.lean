import Verif.Model.PatchUpdate
import Verif.Props.Tighten
import Verif.Props.FitCircles

/-!
# C106: update of the metrology patch
-/

namespace Verif.Props.PatchUpdate
open Verif.Py Verif.Model.PatchUpdate
open Verif.Model.MatchPositioners (median)

/-! ## Specification -/

/-- What a spot is called: location (1000 times the petal location plus device location), pinhole and position. -/
def named : File → List ((ℤ × ℤ) × ℝ × ℝ)
  | .byLocation rows => rows.map fun s => ((s.location, s.pinhole), s.xy)
  | .byPetal rows => rows.map fun s => ((1000 * s.petal + s.device, s.pinhole), s.xy)

/-- `v` is the position of the only spot of that name in the table. -/
def Only (l : List ((ℤ × ℤ) × ℝ × ℝ)) (n : ℤ × ℤ) (v : ℝ × ℝ) : Prop :=
  ∃ a b, l = a ++ (n, v) :: b ∧ (∀ s ∈ a, s.1 ≠ n) ∧ ∀ s ∈ b, s.1 ≠ n

/-- Name of a row of the patch. -/
def name (r : Row) : ℤ × ℤ := (1000 * r.petal + r.device, r.pinhole)

/-- `vs` are the positions of the spot, table by table, where it is found exactly once. -/
def Seen (files : List File) (n : ℤ × ℤ) (vs : List (Option (ℝ × ℝ))) : Prop :=
  List.Forall₂ (fun f o => ∀ v, o = some v ↔ Only (named f) n v) files vs

/-! ## Medians -/

theorem median_perm {l l' : List ℝ} (h : l.Perm l') : median l = median l' := by
  have : pySort (id : ℝ → ℝ) l = pySort id l' :=
    List.Perm.eq_of_pairwise (fun a b _ _ => le_antisymm) (by simpa using Lemmas.sorted_pySort (id : ℝ → ℝ) l)
      (by simpa using Lemmas.sorted_pySort (id : ℝ → ℝ) l')
      ((Lemmas.perm_pySort _ l).trans (h.trans (Lemmas.perm_pySort _ l').symm))
  unfold median
  rw [this, h.length_eq]

theorem repeated_get (l : List ℝ) (n k : ℕ) (hn : 0 < n) : (l.flatMap (List.replicate n)).getD k 0 = l.getD (k / n) 0 := by
  induction l generalizing k with
  | nil => simp
  | cons a t ih =>
    rw [List.flatMap_cons]
    by_cases hk : k < n
    · rw [List.getD_append _ _ _ _ (by simpa using hk), Nat.div_eq_of_lt hk]
      simp [List.getD, hk]
    · push Not at hk
      rw [List.getD_append_right _ _ _ _ (by simpa using hk), ih, List.length_replicate]
      have : k / n = (k - n) / n + 1 := Nat.div_eq_sub_div hn hk
      rw [this]
      rfl

/-- A list in which every value is repeated the same number of times has the same median. -/
theorem median_repeated (l : List ℝ) (n : ℕ) (hn : 0 < n) : median (l.flatMap (List.replicate n)) = median l := by
  have hs : pySort (id : ℝ → ℝ) (l.flatMap (List.replicate n)) = (pySort id l).flatMap (List.replicate n) := by
    refine List.Perm.eq_of_pairwise (fun a b _ _ => le_antisymm) (by simpa using Lemmas.sorted_pySort (id : ℝ → ℝ) _) ?_
      ((Lemmas.perm_pySort _ _).trans ((Lemmas.perm_pySort (id : ℝ → ℝ) l).symm.flatMap_right _))
    have : (pySort (id : ℝ → ℝ) l).Pairwise (· ≤ ·) := by simpa using Lemmas.sorted_pySort (id : ℝ → ℝ) l
    rw [List.flatMap, List.pairwise_flatten]
    constructor
    · intro m hm
      obtain ⟨v, -, rfl⟩ := List.mem_map.1 hm
      exact List.pairwise_replicate.2 (Or.inr le_rfl)
    · rw [List.pairwise_map]
      refine this.imp ?_
      intro a b hab x hx y hy
      rw [List.eq_of_mem_replicate hx, List.eq_of_mem_replicate hy]
      exact hab
  have hl : (l.flatMap (List.replicate n)).length = n * l.length := by
    rw [List.length_flatMap]; simp [mul_comm]
  unfold median
  simp only [hs, hl, repeated_get _ _ _ hn]
  have e1 : (n * l.length - 1) / 2 / n = (l.length - 1) / 2 := by
    rw [Nat.div_div_eq_div_mul, mul_comm 2 n, ← Nat.div_div_eq_div_mul]
    congr 1
    rcases Nat.eq_zero_or_pos l.length with h | h
    · rw [h]; simp
    · obtain ⟨m, hm⟩ : ∃ m, l.length = m + 1 := ⟨l.length - 1, by omega⟩
      rw [hm, Nat.mul_add, mul_one, Nat.add_sub_assoc hn, Nat.mul_add_div hn, Nat.div_eq_of_lt (by omega)]
      omega
  have e2 : n * l.length / 2 / n = l.length / 2 := by
    rw [Nat.div_div_eq_div_mul, mul_comm 2 n, ← Nat.div_div_eq_div_mul, Nat.mul_div_cancel_left _ hn]
  rw [e1, e2]

/-! ## What is collected -/

/-- The spot with key `k`, if there is exactly one. -/
def single (spots : List (ℤ × ℝ × ℝ)) (k : ℤ) : Option (ℝ × ℝ) :=
  match spots.filter fun s => s.1 = k with
  | [s] => some s.2
  | _ => none

theorem collectOne_get (spots : List (ℤ × ℝ × ℝ)) (d : Dict ℤ (List (ℝ × ℝ))) (j k : ℤ) :
    ((collectOne spots d j).get? k).getD [] = (d.get? k).getD [] ++ if j = k then (single spots k).toList else [] := by
  unfold collectOne single
  by_cases h : j = k
  · subst h
    rw [if_pos rfl]
    obtain ⟨L, hL⟩ : ∃ L, L = spots.filter fun s => decide (s.1 = j) := ⟨_, rfl⟩
    rw [← hL]
    rcases L with _ | ⟨a, _ | ⟨b, t⟩⟩
    · simp
    · dsimp only
      rw [Dict.get?_set_self]; rfl
    · simp
  · rw [if_neg h, List.append_nil]
    split
    · rw [Dict.get?_set_ne _ _ h]
    · rfl

theorem collect_get (locs : List ℤ) (f : File) (d : Dict ℤ (List (ℝ × ℝ))) (k : ℤ) :
    ((collect locs d f).get? k).getD [] = (d.get? k).getD [] ++ (single (sloc f) k).toList.flatMap (List.replicate (locs.count k)) := by
  unfold collect
  induction locs generalizing d with
  | nil => rw [List.foldl_nil, List.count_nil]; cases single (sloc f) k <;> simp
  | cons j t ih =>
    rw [List.foldl_cons, ih, collectOne_get, List.append_assoc, List.count_cons]
    congr 1
    by_cases h : j = k
    · subst h
      rcases single (sloc f) j with _ | v
      · simp
      · simp [List.replicate_succ]
    · simp [h]

theorem collected (locs : List ℤ) (files : List File) (d : Dict ℤ (List (ℝ × ℝ))) (k : ℤ) :
    ((files.foldl (collect locs) d).get? k).getD [] =
      (d.get? k).getD [] ++ (files.filterMap fun f => single (sloc f) k).flatMap (List.replicate (locs.count k)) := by
  induction files generalizing d with
  | nil => simp
  | cons f t ih =>
    rw [List.foldl_cons, ih, collect_get, List.filterMap_cons, List.append_assoc]
    congr 1
    rcases single (sloc f) k with _ | v
    · simp
    · simp

theorem start_get (locs : List ℤ) (k : ℤ) : ((start locs).get? k).getD [] = [] := by
  unfold start
  have : ∀ (d : Dict ℤ (List (ℝ × ℝ))), ((d.get? k).getD [] = []) →
      ((locs.foldl (fun d k => d.set k []) d).get? k).getD [] = [] := by
    induction locs with
    | nil => intro d h; exact h
    | cons j t ih =>
      intro d h
      rw [List.foldl_cons]
      refine ih _ ?_
      rw [Dict.get?_set]
      split_ifs
      · rfl
      · exact h
  exact this [] rfl

/-! ## What is written -/

/-- New row from the values of its key. -/
noncomputable def fresh (vs : List (ℝ × ℝ)) (r : Row) : Row :=
  match vs with
  | [] => r
  | v :: l => { r with x := median ((v :: l).map Prod.fst), y := median ((v :: l).map Prod.snd) }

theorem ploc_fresh (vs : List (ℝ × ℝ)) (r : Row) : ploc (fresh vs r) = ploc r := by
  unfold fresh
  split <;> rfl

theorem fresh_fresh (vs : List (ℝ × ℝ)) (r : Row) : fresh vs (fresh vs r) = fresh vs r := by
  unfold fresh
  cases vs <;> rfl

theorem replaceOne_map (d : Dict ℤ (List (ℝ × ℝ))) (patch : List Row) (k : ℤ) :
    replaceOne d patch k = patch.map fun r => if ploc r = k then fresh ((d.get? k).getD []) r else r := by
  unfold replaceOne fresh
  rcases (d.get? k).getD [] with _ | ⟨v, l⟩
  · simp
  · rfl

theorem replace_all (d : Dict ℤ (List (ℝ × ℝ))) (locs : List ℤ) (patch : List Row) :
    locs.foldl (replaceOne d) patch = patch.map fun r => if ploc r ∈ locs then fresh ((d.get? (ploc r)).getD []) r else r := by
  induction locs generalizing patch with
  | nil => simp
  | cons k t ih =>
    rw [List.foldl_cons, ih, replaceOne_map, List.map_map]
    apply List.map_congr_left
    intro r _
    simp only [Function.comp]
    by_cases h : ploc r = k
    · have h2 : ploc r ∈ k :: t := by rw [h]; exact List.mem_cons_self
      rw [if_pos h, if_pos h2, ploc_fresh, h]
      by_cases h3 : k ∈ t
      · rw [if_pos h3]; exact fresh_fresh _ _
      · rw [if_neg h3]
    · rw [if_neg h]
      have : ploc r ∈ k :: t ↔ ploc r ∈ t := by simp [h]
      simp only [this]

/-- Values found for a key. -/
def found (files : List File) (k : ℤ) : List (ℝ × ℝ) := files.filterMap fun f => single (sloc f) k

theorem update_map (patch : List Row) (files : List File) : update patch files = patch.map fun r => fresh (found files (ploc r)) r := by
  unfold update
  dsimp only
  rw [replace_all]
  apply List.map_congr_left
  intro r hr
  have hm : ploc r ∈ patch.map ploc := List.mem_map_of_mem hr
  rw [if_pos hm, collected, start_get, List.nil_append]
  have hc : 0 < (patch.map ploc).count (ploc r) := List.count_pos_iff.2 hm
  change fresh ((found files (ploc r)).flatMap _) r = _
  generalize (patch.map ploc).count (ploc r) = n at hc
  rcases found files (ploc r) with _ | ⟨v, l⟩
  · rfl
  · have e1 := median_repeated ((v :: l).map Prod.fst) n hc
    have e2 := median_repeated ((v :: l).map Prod.snd) n hc
    have m1 : ((v :: l).map Prod.fst).flatMap (List.replicate n) = ((v :: l).flatMap (List.replicate n)).map Prod.fst := by
      rw [List.flatMap_map, List.map_flatMap]; simp
    have m2 : ((v :: l).map Prod.snd).flatMap (List.replicate n) = ((v :: l).flatMap (List.replicate n)).map Prod.snd := by
      rw [List.flatMap_map, List.map_flatMap]; simp
    rw [m1] at e1
    rw [m2] at e2
    obtain ⟨w, u, hw⟩ : ∃ w u, (v :: l).flatMap (List.replicate n) = w :: u := by
      obtain ⟨m, rfl⟩ : ∃ m, n = m + 1 := ⟨n - 1, by omega⟩
      exact ⟨v, List.replicate m v ++ l.flatMap (List.replicate (m + 1)), by rw [List.flatMap_cons, List.replicate_succ]; rfl⟩
    rw [hw] at e1 e2 ⊢
    unfold fresh
    dsimp only
    rw [e1, e2]

theorem single_iff (l : List ((ℤ × ℤ) × ℝ × ℝ)) (n : ℤ × ℤ) (v : ℝ × ℝ) (h0 : 0 ≤ n.2 ∧ n.2 < 10)
    (h : ∀ s ∈ l, 0 ≤ s.1.2 ∧ s.1.2 < 10) :
    single (l.map fun s => (s.1.1 * 10 + s.1.2, s.2)) (n.1 * 10 + n.2) = some v ↔ Only l n v := by
  have key : ∀ s ∈ l, (s.1.1 * 10 + s.1.2 = n.1 * 10 + n.2 ↔ s.1 = n) := by
    intro s hs
    have := h s hs
    constructor
    · intro e
      exact Prod.ext (by omega) (by omega)
    · intro e; rw [e]
  have hf : (l.map fun s => (s.1.1 * 10 + s.1.2, s.2)).filter (fun s => decide (s.1 = n.1 * 10 + n.2)) =
      (l.filter fun s => decide (s.1 = n)).map fun s => (s.1.1 * 10 + s.1.2, s.2) := by
    rw [List.filter_map]
    congr 1
    apply List.filter_congr
    intro s hs
    simp only [Function.comp, key s hs]
  have hs : single (l.map fun s => (s.1.1 * 10 + s.1.2, s.2)) (n.1 * 10 + n.2) = some v ↔
      (l.filter fun s => decide (s.1 = n)) = [(n, v)] := by
    unfold single
    rw [hf]
    obtain ⟨L, hl⟩ : ∃ L, l.filter (fun s => decide (s.1 = n)) = L := ⟨_, rfl⟩
    rw [hl]
    rcases L with _ | ⟨a, _ | ⟨b, t⟩⟩
    · exact ⟨fun e => (nomatch e), fun e => (nomatch e)⟩
    · have ha : a ∈ l.filter fun s => decide (s.1 = n) := by rw [hl]; exact List.mem_cons_self
      have ha := of_decide_eq_true (List.mem_filter.1 ha).2
      change some a.2 = some v ↔ _
      constructor
      · intro e
        rw [show a = (n, v) from Prod.ext ha (Option.some.inj e)]
      · intro e
        rw [(List.cons.inj e).1]
    · exact ⟨fun e => (nomatch e), fun e => (nomatch e)⟩
  rw [hs]
  unfold Only
  clear hs hf key h
  induction l with
  | nil => simp
  | cons a t ih =>
    by_cases ha : a.1 = n
    · rw [List.filter_cons_of_pos (by simpa using ha)]
      constructor
      · intro e
        obtain ⟨e1, e2⟩ := List.cons.inj e
        refine ⟨[], t, by rw [← e1]; rfl, by simp, ?_⟩
        intro s hs e
        have : s ∈ t.filter fun s => decide (s.1 = n) := List.mem_filter.2 ⟨hs, by simpa using e⟩
        rw [e2] at this
        cases this
      · rintro ⟨p, q, e, h1, h2⟩
        rcases p with _ | ⟨b, p⟩
        · obtain ⟨e1, e2⟩ := List.cons.inj e
          rw [e1, e2, List.filter_eq_nil_iff.2]
          intro s hs
          simpa using h2 s hs
        · obtain ⟨e1, e2⟩ := List.cons.inj e
          exact absurd ha (by rw [e1]; exact h1 b List.mem_cons_self)
    · rw [List.filter_cons_of_neg (by simpa using ha)]
      refine ih.trans ?_
      constructor
      · rintro ⟨p, q, e, h1, h2⟩
        refine ⟨a :: p, q, by rw [e]; rfl, ?_, h2⟩
        intro s hs
        rcases List.mem_cons.1 hs with rfl | hs
        · exact ha
        · exact h1 s hs
      · rintro ⟨p, q, e, h1, h2⟩
        rcases p with _ | ⟨b, p⟩
        · obtain ⟨e1, e2⟩ := List.cons.inj e
          exact absurd (by rw [e1]) ha
        · obtain ⟨e1, e2⟩ := List.cons.inj e
          exact ⟨p, q, e2, fun s hs => h1 s (List.mem_cons_of_mem _ hs), h2⟩

theorem sloc_named (f : File) : sloc f = (named f).map fun s => (s.1.1 * 10 + s.1.2, s.2) := by
  cases f with
  | byLocation rows => simp [sloc, named]
  | byPetal rows =>
    simp only [sloc, named, List.map_map]
    apply List.map_congr_left
    intro s _
    simp only [Function.comp, Prod.mk.injEq, and_true]
    ring

/-- **C106** Every row of the patch stays where it is with its name. Its coordinates become the medians of the positions of the spot of
that name (location and pinhole) in those tables where exactly one spot has it; without such a table they do not change. Tables
with LOCATION and those with PETAL_LOC and DEVICE_LOC can be mixed. Rows of the patch with the same name all get the same values. -/
theorem C106_update (patch : List Row) (files : List File) (hp : ∀ r ∈ patch, 0 ≤ r.pinhole ∧ r.pinhole < 10)
    (hf : ∀ f ∈ files, ∀ s ∈ named f, 0 ≤ s.1.2 ∧ s.1.2 < 10) :
    (update patch files).length = patch.length ∧ ∀ (i : ℕ) r, patch[i]? = some r → ∃ r' vs, (update patch files)[i]? = some r' ∧
      (r'.petal = r.petal ∧ r'.device = r.device ∧ r'.pinhole = r.pinhole) ∧ Seen files (name r) vs ∧
      (vs.reduceOption = [] → r' = r) ∧
      (vs.reduceOption ≠ [] → MedianOf r'.x (vs.reduceOption.map Prod.fst) ∧ MedianOf r'.y (vs.reduceOption.map Prod.snd)) := by
  rw [update_map]
  refine ⟨List.length_map _, ?_⟩
  intro i r hr
  have hmem := List.mem_of_getElem? hr
  refine ⟨_, files.map fun f => single (sloc f) (ploc r), by rw [List.getElem?_map, hr]; rfl, ?_, ?_, ?_, ?_⟩
  · show (fresh _ r).petal = _ ∧ (fresh _ r).device = _ ∧ (fresh _ r).pinhole = _
    unfold fresh
    rcases found files (ploc r) with _ | ⟨v, l⟩ <;> exact ⟨rfl, rfl, rfl⟩
  · unfold Seen
    rw [List.forall₂_map_right_iff, List.forall₂_same]
    intro f hfm v
    rw [sloc_named, ← single_iff (named f) (name r) v (hp r hmem) (hf f hfm)]
    have : ploc r = (name r).1 * 10 + (name r).2 := by unfold ploc name; ring
    rw [this]
  · have e : (files.map fun f => single (sloc f) (ploc r)).reduceOption = found files (ploc r) := by
      unfold List.reduceOption found
      rw [List.filterMap_map]; rfl
    rw [e]
    intro h
    show fresh (found files (ploc r)) r = r
    rw [h]
    rfl
  · have e : (files.map fun f => single (sloc f) (ploc r)).reduceOption = found files (ploc r) := by
      unfold List.reduceOption found
      rw [List.filterMap_map]; rfl
    rw [e]
    intro h
    show MedianOf (fresh (found files (ploc r)) r).x _ ∧ MedianOf (fresh (found files (ploc r)) r).y _
    revert h
    rcases found files (ploc r) with _ | ⟨v, l⟩
    · intro h; exact absurd rfl h
    · intro _
      exact ⟨median_medianOf (by simp), median_medianOf (by simp)⟩

/-- **C106** The order of the tables does not matter. -/
theorem C106_order (patch : List Row) (files files' : List File) (h : files.Perm files') : update patch files = update patch files' := by
  rw [update_map, update_map]
  apply List.map_congr_left
  intro r _
  have hp : (found files (ploc r)).Perm (found files' (ploc r)) := h.filterMap _
  rcases h1 : found files (ploc r) with _ | ⟨v, l⟩
  · rw [h1] at hp
    rw [List.Perm.nil_eq hp]
  · rcases h2 : found files' (ploc r) with _ | ⟨w, m⟩
    · rw [h2] at hp
      rw [h1] at hp
      exact absurd hp.length_eq (by simp)
    · rw [h1, h2] at hp
      unfold fresh
      dsimp only
      rw [median_perm (hp.map Prod.fst), median_perm (hp.map Prod.snd)]

/-- **C106** Applying the same tables to the result changes nothing; and the coordinates written do not depend on those of the patch. -/
theorem C106_again (patch : List Row) (files : List File) : update (update patch files) files = update patch files := by
  rw [update_map patch, update_map, List.map_map]
  apply List.map_congr_left
  intro r _
  simp only [Function.comp, ploc_fresh, fresh_fresh]

/-- Tables in which the name occurs once, twice and not at all: only the first counts. -/
example (x y x' y' : ℝ) : update [⟨1, 2, 3, x, y⟩]
    [.byLocation [⟨1002, 3, (x', y')⟩], .byPetal [⟨1, 2, 3, (0, 0)⟩, ⟨1, 2, 3, (0, 0)⟩], .byPetal []] = [⟨1, 2, 3, x', y'⟩] := by
  rw [update_map]
  simp [found, sloc, single, ploc, fresh, median, pySort, pyInsert]

end Verif.Props.PatchUpdate
