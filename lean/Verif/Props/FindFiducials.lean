import Verif.Model.FindFiducials
import Verif.Props.AverageCoord
import Verif.Props.MatchTriangle
import Mathlib.Data.List.Pairwise
import Mathlib.Data.List.NodupEquivFin

/-!
# Property C35: finding the fiducials (`findfiducials.py`)
-/

namespace Verif.Props
open Verif.Py Verif.Model.Match Verif.Model.FindFiducials
open Verif.Model.AverageCoord (okPairs matchLists)
open Verif.Spec (OnLine Affine)

namespace Fid

/-- The KD-tree query for up to four neighbours nearer than `r`. -/
def KnnOk (knn : List (ℝ × ℝ) → WithTop ℝ → ℕ → List ℕ) : Prop :=
  ∀ (pts : List (ℝ × ℝ)) (r : WithTop ℝ) (i : ℕ), i < pts.length →
    (knn pts r i).Nodup ∧ (knn pts r i).length ≤ 4 ∧
    (∀ j ∈ knn pts r i, j < pts.length ∧ ((dist2 (pts.getD i (0, 0)) (pts.getD j (0, 0)) : ℝ) : WithTop ℝ) < r) ∧
    ∀ j, j < pts.length → ((dist2 (pts.getD i (0, 0)) (pts.getD j (0, 0)) : ℝ) : WithTop ℝ) < r →
      j ∈ knn pts r i ∨ ((knn pts r i).length = 4 ∧
        ∀ k ∈ knn pts r i, dist2 (pts.getD i (0, 0)) (pts.getD k (0, 0)) ≤ dist2 (pts.getD i (0, 0)) (pts.getD j (0, 0)))

/-- The library routines do what they are documented to do. -/
structure Good (env : Env) : Prop where
  same : Avg.Good env.same
  knn : KnnOk env.knn
  ordx : ∀ {n : ℕ} (xy : Fin n → ℝ × ℝ), OrderedBy xy (env.ordx xy)
  near : NearestTri env.nearTri
  rank : Sorts env.rank

theorem assign_spec (loc : ℤ) : ∀ (pi1 : List ℕ) (ids : List (Option ℤ)) (lab : ℕ → Label), pi1.Nodup →
    (∀ (i s : ℕ) (v : ℤ), pi1[i]? = some s → ids[i]? = some (some v) → assign pi1 loc ids lab s = { lab s with loc := loc, pin := v }) ∧
    (∀ s, (∀ (i : ℕ) (v : ℤ), pi1[i]? = some s → ids[i]? ≠ some (some v)) → assign pi1 loc ids lab s = lab s) := by
  intro pi1
  induction pi1 with
  | nil => intro ids lab _; simp [assign]
  | cons a pi1 ih =>
    intro ids lab hn
    rw [List.nodup_cons] at hn
    cases ids with
    | nil => simp [assign]
    | cons o ids =>
      cases o with
      | none =>
        have e : assign (a :: pi1) loc (none :: ids) lab = assign pi1 loc ids lab := rfl
        obtain ⟨h1, h2⟩ := ih ids lab hn.2
        rw [e]
        constructor
        · intro i s v hs hv
          cases i with
          | zero => simp at hv
          | succ i => exact h1 i s v hs hv
        · intro s hs
          exact h2 s fun i v hi => hs (i + 1) v hi
      | some w =>
        have e : assign (a :: pi1) loc (some w :: ids) lab =
            assign pi1 loc ids (Function.update lab a { lab a with loc := loc, pin := w }) := rfl
        obtain ⟨h1, h2⟩ := ih ids (Function.update lab a { lab a with loc := loc, pin := w }) hn.2
        rw [e]
        constructor
        · intro i s v hs hv
          cases i with
          | zero =>
            simp only [List.getElem?_cons_zero, Option.some.injEq] at hs hv
            subst hs hv
            rw [h2 a (fun i v hi => absurd (List.mem_of_getElem? hi) hn.1), Function.update_self]
          | succ i =>
            simp only [List.getElem?_cons_succ] at hs hv
            rw [h1 i s v hs hv, Function.update_of_ne]
            rintro rfl
            exact hn.1 (List.mem_of_getElem? hs)
        · intro s hs
          have hsa : s ≠ a := by
            rintro rfl
            exact hs 0 w rfl rfl
          rw [h2 s fun i v hi => hs (i + 1) v hi, Function.update_of_ne hsa]

theorem two_count (l : List ℤ) (v : ℤ) (i j : ℕ) (hij : i ≠ j) (hi : l[i]? = some v) (hj : l[j]? = some v) :
    1 < l.count v := by
  rw [List.getElem?_eq_some_iff] at hi hj
  obtain ⟨hi1, hi2⟩ := hi
  obtain ⟨hj1, hj2⟩ := hj
  have : l.Duplicate v := by
    rw [List.duplicate_iff_exists_distinct_get]
    rcases Nat.lt_or_gt_of_ne hij with h | h
    · exact ⟨⟨i, hi1⟩, ⟨j, hj1⟩, h, hi2.symm, hj2.symm⟩
    · exact ⟨⟨j, hj1⟩, ⟨i, hi1⟩, h, hj2.symm, hi2.symm⟩
  exact List.duplicate_iff_two_le_count.1 this

theorem mem_rowsOf (pins : List CPin) (loc : ℤ) (i : ℕ) :
    i ∈ rowsOf pins loc ↔ ∃ p, pins[i]? = some p ∧ p.loc = loc := by
  unfold rowsOf
  rw [List.mem_filter, List.mem_range, List.getElem?_map]
  simp only [decide_eq_true_eq, Option.map_eq_some_iff]
  constructor
  · rintro ⟨-, h⟩; exact h
  · rintro ⟨p, h1, h2⟩
    exact ⟨(List.getElem?_eq_some_iff.1 h1).1, p, h1, h2⟩

theorem nodup_rowsOf (pins : List CPin) (loc : ℤ) : (rowsOf pins loc).Nodup := List.nodup_range.filter _

/-- The row of a location in the fiducials table. -/
def locAt (c : Cache) (k : ℕ) : ℤ := (c.pins.map (·.loc)).getD (c.fids.getD k 0) 0

theorem step_spec (env : Env) (c : Cache) (pts : List (ℝ × ℝ)) (r : WithTop ℝ) (lab lab' : ℕ → Label) (e : ℕ × ℕ)
    (h : step env c pts r lab e = .ok lab') :
    ∃ ids : List (Option ℤ), ids.length = (env.knn pts r e.1).length ∧
      (∀ v, some v ∈ ids → ∃ p ∈ c.pins, p.loc = locAt c e.2 ∧ p.id = v) ∧
      lab' = fun s => if (assign (env.knn pts r e.1) (locAt c e.2) ids lab s).loc = locAt c e.2 ∧
          (assign (env.knn pts r e.1) (locAt c e.2) ids lab s).pin ∈ duplicates (ids.map (·.getD 0))
        then { assign (env.knn pts r e.1) (locAt c e.2) ids lab s with pin := 0 }
        else assign (env.knn pts r e.1) (locAt c e.2) ids lab s := by
  unfold step labelGroup at h
  obtain ⟨m, -, h⟩ := Lemmas.bind_ok h
  simp only [pure, Except.pure, Except.ok.injEq] at h
  refine ⟨_, ?_, ?_, h.symm⟩
  · rw [List.length_ofFn]
  · intro v hv
    rw [List.mem_ofFn] at hv
    obtain ⟨i, hi⟩ := hv
    rw [Option.map_eq_some_iff] at hi
    obtain ⟨j, -, hj⟩ := hi
    have hmem := List.getElem_mem (l := rowsOf c.pins (locAt c e.2)) j.2
    rw [mem_rowsOf] at hmem
    obtain ⟨p, hp, hloc⟩ := hmem
    refine ⟨p, List.mem_of_getElem? hp, hloc, ?_⟩
    rw [← hj, List.getD_eq_getElem?_getD, List.getElem?_map]
    have : c.pins[(rowsOf c.pins (locAt c e.2))[j]]? = some p := hp
    erw [this]
    rfl

/-- What holds of the labels while the fiducials are treated: `D` are the locations treated. -/
structure Inv (c : Cache) (D : List ℤ) (lab : ℕ → Label) : Prop where
  row : ∀ s, lab s = ⟨-1, -1, -1, 0⟩ ∨ ((lab s).petal = -1 ∧ (lab s).dev = -1 ∧ (lab s).loc ∈ D ∧
    ∃ p ∈ c.pins, p.loc = (lab s).loc ∧ ((lab s).pin = 0 ∨ p.id = (lab s).pin))
  uniq : ∀ s s', 0 < (lab s).pin → (lab s').pin = (lab s).pin → (lab s').loc = (lab s).loc → s = s'

theorem inv_step (env : Env) (hk : KnnOk env.knn) (c : Cache) (pts : List (ℝ × ℝ)) (r : WithTop ℝ) (D : List ℤ)
    (lab lab' : ℕ → Label) (e : ℕ × ℕ) (he : e.1 < pts.length) (hi : Inv c D lab) (hD : locAt c e.2 ∉ D)
    (h : step env c pts r lab e = .ok lab') : Inv c (locAt c e.2 :: D) lab' := by
  obtain ⟨ids, hlen, hids, rfl⟩ := step_spec env c pts r lab lab' e h
  have hnd := (hk pts r e.1 he).1
  obtain ⟨a1, a2⟩ := assign_spec (locAt c e.2) (env.knn pts r e.1) ids lab hnd
  generalize env.knn pts r e.1 = K at *
  set A := assign K (locAt c e.2) ids lab with hA
  have hcase : ∀ s, (∃ (i : ℕ) (v : ℤ), K[i]? = some s ∧ ids[i]? = some (some v) ∧ A s = { lab s with loc := locAt c e.2, pin := v }) ∨
      A s = lab s := by
    intro s
    by_cases hs : ∃ (i : ℕ) (v : ℤ), K[i]? = some s ∧ ids[i]? = some (some v)
    · obtain ⟨i, v, h1, h2⟩ := hs
      exact Or.inl ⟨i, v, h1, h2, a1 i s v h1 h2⟩
    · refine Or.inr (a2 s fun i v h1 h2 => hs ⟨i, v, h1, h2⟩)
  have hrowA : ∀ s, A s = ⟨-1, -1, -1, 0⟩ ∨ ((A s).petal = -1 ∧ (A s).dev = -1 ∧ (A s).loc ∈ locAt c e.2 :: D ∧
      ∃ p ∈ c.pins, p.loc = (A s).loc ∧ ((A s).pin = 0 ∨ p.id = (A s).pin)) := by
    intro s
    rcases hcase s with ⟨i, v, h1, h2, h3⟩ | h3
    · right
      obtain ⟨p, hp1, hp2, hp3⟩ := hids v (List.mem_of_getElem? h2)
      rw [h3]
      refine ⟨?_, ?_, by simp, p, hp1, hp2, Or.inr hp3⟩
      · rcases hi.row s with h | h
        · rw [h]
        · exact h.1
      · rcases hi.row s with h | h
        · rw [h]
        · exact h.2.1
    · rw [h3]
      rcases hi.row s with h | ⟨h1, h2, h4, h5⟩
      · exact Or.inl h
      · exact Or.inr ⟨h1, h2, List.mem_cons_of_mem _ h4, h5⟩
  constructor
  · intro s
    dsimp only
    split_ifs with hz
    · rcases hrowA s with h | ⟨h1, h2, h3, p, h4, h5, -⟩
      · left; rw [h]
      · exact Or.inr ⟨h1, h2, h3, p, h4, h5, Or.inl rfl⟩
    · exact hrowA s
  · intro s s' h1 h2 h3
    dsimp only at h1 h2 h3
    by_cases hz : (A s).loc = locAt c e.2 ∧ (A s).pin ∈ duplicates (ids.map (·.getD 0))
    · rw [if_pos hz] at h1
      exact absurd h1 (lt_irrefl _)
    by_cases hz' : (A s').loc = locAt c e.2 ∧ (A s').pin ∈ duplicates (ids.map (·.getD 0))
    · rw [if_pos hz', if_neg hz] at h2
      rw [if_neg hz] at h1
      exact absurd h2 (by simp only; omega)
    rw [if_neg hz] at h1 h2 h3
    rw [if_neg hz'] at h2 h3
    have hold : ∀ t, A t = lab t → 0 < (A t).pin → (A t).loc ≠ locAt c e.2 := by
      intro t ht hp he'
      rw [ht] at hp he'
      rcases hi.row t with h | h
      · rw [h] at hp; exact absurd hp (by norm_num)
      · exact hD (he' ▸ h.2.2.1)
    rcases hcase s with ⟨i, v, q1, q2, q3⟩ | q3 <;> rcases hcase s' with ⟨i', v', q1', q2', q3'⟩ | q3'
    · have hvv : v' = v := by rw [q3, q3'] at h2; exact h2
      subst hvv
      by_contra hne
      have hii : i ≠ i' := by
        rintro rfl
        rw [q1] at q1'
        exact hne (by injection q1')
      apply hz
      rw [q3]
      refine ⟨rfl, ?_⟩
      unfold duplicates
      rw [List.mem_filter]
      have hm : ∀ k : ℕ, ids[k]? = some (some v') → (ids.map (·.getD 0))[k]? = some v' := by
        intro k hk'
        rw [List.getElem?_map, hk']; rfl
      refine ⟨List.mem_of_getElem? (hm i q2), ?_⟩
      simp only [decide_eq_true_eq]
      refine ⟨by rw [q3] at h1; exact h1, ?_⟩
      exact two_count _ _ i i' hii (hm i q2) (hm i' q2')
    · exact absurd (h3.trans (by rw [q3])) (hold s' q3' (by rw [h2]; exact h1))
    · exact absurd (h3.symm.trans (by rw [q3'])) (hold s q3 h1)
    · rw [q3, q3'] at h2
      rw [q3, q3'] at h3
      rw [q3] at h1
      exact hi.uniq s s' h1 h2 h3

theorem central_spec (pins : List CPin) (loc : ℤ) (i : ℕ) (h : central pins loc = some i) : i ∈ rowsOf pins loc :=
  List.argmin_mem h

theorem central_some (pins : List CPin) (loc : ℤ) (h : ∃ p ∈ pins, p.loc = loc) : ∃ i, central pins loc = some i := by
  obtain ⟨p, hp, hl⟩ := h
  obtain ⟨i, hi, rfl⟩ := List.getElem_of_mem hp
  have hm : i ∈ rowsOf pins loc := (mem_rowsOf _ _ _).2 ⟨_, List.getElem?_eq_getElem hi, hl⟩
  unfold central
  dsimp only
  cases he : List.argmin (fun i => ((pixAt pins i).1 - mean ((rowsOf pins loc).map fun i => (pixAt pins i).1)) ^ 2 +
      ((pixAt pins i).2 - mean ((rowsOf pins loc).map fun i => (pixAt pins i).2)) ^ 2) (rowsOf pins loc) with
  | none => rw [List.argmin_eq_none] at he; rw [he] at hm; cases hm
  | some a => exact ⟨a, rfl⟩

theorem fids_forall (pins : List CPin) (locs : List ℤ) (h : ∀ l ∈ locs, ∃ p ∈ pins, p.loc = l) :
    List.Forall₂ (fun l i => central pins l = some i) locs (locs.filterMap (central pins)) := by
  induction locs with
  | nil => exact .nil
  | cons l locs ih =>
    obtain ⟨i, hi⟩ := central_some pins l (h l (by simp))
    rw [List.filterMap_cons_some hi]
    exact .cons hi (ih fun l' hl' => h l' (List.mem_cons_of_mem _ hl'))

/-- The fiducials table lists each location once. -/
theorem build_locs (metro : List Pin) (tx : Tx) :
    (build metro tx).fids.map (fun i => ((build metro tx).pins.map (·.loc)).getD i 0) =
      (pySort id (metro.map (·.loc))).dedup ∧
    ∀ i ∈ (build metro tx).fids, i < metro.length := by
  have hl : (build metro tx).pins.map (·.loc) = metro.map (·.loc) := by
    unfold build; simp [List.map_map, Function.comp_def]
  have hf := fids_forall (build metro tx).pins ((pySort id ((build metro tx).pins.map (·.loc))).dedup) (by
    intro l hl
    rw [List.mem_dedup, Lemmas.mem_pySort, List.mem_map] at hl
    exact hl)
  have hfe : ((pySort id ((build metro tx).pins.map (·.loc))).dedup).filterMap (central (build metro tx).pins) =
      (build metro tx).fids := rfl
  rw [hfe] at hf
  have hrow : ∀ l i, central (build metro tx).pins l = some i →
      ((build metro tx).pins.map (·.loc)).getD i 0 = l ∧ i < metro.length := by
    intro l i h
    obtain ⟨p, hp, hpl⟩ := (mem_rowsOf _ _ _).1 (central_spec _ _ _ h)
    have hlt := (List.getElem?_eq_some_iff.1 hp).1
    refine ⟨?_, by simpa [build] using hlt⟩
    rw [List.getD_eq_getElem?_getD, List.getElem?_map, hp]
    exact hpl
  rw [hl] at hf
  constructor
  · have := List.Forall₂.imp (fun l i h => (hrow l i h).1.symm) hf
    rw [← List.forall₂_map_right_iff (f := fun i => ((build metro tx).pins.map (·.loc)).getD i 0), List.forall₂_eq_eq_eq] at this
    exact this.symm
  · intro i hi
    rw [← hfe, List.mem_filterMap] at hi
    obtain ⟨l, -, h⟩ := hi
    exact (hrow l i h).2

theorem iterate_length (env : Env) (x1 : List (ℝ × ℝ)) : ∀ (k : ℕ) (x2 : List (ℝ × ℝ)) (saved : ℝ) (out : List (ℝ × ℝ)),
    iterate env x1 k x2 saved = .ok out → out.length = x2.length := by
  intro k
  induction k with
  | zero => intro x2 saved out h; simp only [iterate, Except.ok.injEq] at h; rw [h]
  | succ k ih =>
    intro x2 saved out h
    unfold iterate at h
    obtain ⟨corr, -, h⟩ := Lemmas.bind_ok h
    dsimp only at h
    split_ifs at h
    · simp only [Except.ok.injEq] at h
      rw [← h, List.length_map]
    · rw [ih _ _ _ h, List.length_map]

theorem inv_fold (env : Env) (hk : KnnOk env.knn) (c : Cache) (pts : List (ℝ × ℝ)) (r : WithTop ℝ) (es : List (ℕ × ℕ)) :
    ∀ (D : List ℤ) (lab lab' : ℕ → Label), (∀ e ∈ es, e.1 < pts.length) → (es.map fun e => locAt c e.2).Nodup →
      (∀ e ∈ es, locAt c e.2 ∉ D) → Inv c D lab → es.foldlM (step env c pts r) lab = .ok lab' →
      ∃ D', (∀ l ∈ D', l ∈ D ∨ l ∈ es.map fun e => locAt c e.2) ∧ Inv c D' lab' := by
  induction es with
  | nil =>
    intro D lab lab' _ _ _ hi h
    simp only [List.foldlM_nil, pure, Except.pure, Except.ok.injEq] at h
    exact ⟨D, fun l hl => Or.inl hl, h ▸ hi⟩
  | cons e es ih =>
    intro D lab lab' h1 h2 h3 hi h
    rw [List.foldlM_cons] at h
    obtain ⟨lab1, h4, h⟩ := Lemmas.bind_ok h
    rw [List.map_cons, List.nodup_cons] at h2
    have hi1 := inv_step env hk c pts r D lab lab1 e (h1 e (by simp)) hi (h3 e (by simp)) h4
    obtain ⟨D', q1, q2⟩ := ih (locAt c e.2 :: D) lab1 lab' (fun e' he' => h1 e' (List.mem_cons_of_mem _ he')) h2.2 (by
      intro e' he' hm
      rw [List.mem_cons] at hm
      rcases hm with hm | hm
      · exact h2.1 (hm ▸ List.mem_map_of_mem he')
      · exact h3 e' (List.mem_cons_of_mem _ he') hm) hi1 h
    refine ⟨D', ?_, q2⟩
    intro l hl
    rcases q1 l hl with h | h
    · rw [List.mem_cons] at h
      rcases h with rfl | h
      · exact Or.inr (by simp)
      · exact Or.inl h
    · exact Or.inr (List.mem_cons_of_mem _ h)

theorem pairs_facts (env : Env) (hs : Avg.Good env.same) (pts : List (ℝ × ℝ)) (r : WithTop ℝ) (x2 : List (ℝ × ℝ)) :
    (∀ e ∈ finalPairs env (candidates env pts r) ((candidates env pts r).map fun i => pts.getD i (0, 0)) x2,
      e.1 < pts.length ∧ e.2 < x2.length) ∧
    (finalPairs env (candidates env pts r) ((candidates env pts r).map fun i => pts.getD i (0, 0)) x2).Pairwise
      fun e e' => e.2 < e'.2 := by
  obtain ⟨f1, -⟩ := Avg.match_facts env.same hs 10 x2 ((candidates env pts r).map fun i => pts.getD i (0, 0))
  constructor
  · intro e he
    unfold finalPairs at he
    obtain ⟨p, hp, rfl⟩ := List.mem_map.1 he
    obtain ⟨q1, q2, -⟩ := f1 p.1 p.2 hp
    rw [List.length_map] at q2
    refine ⟨?_, q1⟩
    dsimp only
    rw [List.getD_eq_getElem _ _ q2]
    have := List.getElem_mem q2
    unfold candidates at this
    rw [List.mem_filter, List.mem_range] at this
    exact this.1
  · unfold finalPairs
    rw [List.pairwise_map]
    exact Avg.okPairs_pairwise _ _

theorem locs_nodup (metro : List Pin) (tx : Tx) (es : List (ℕ × ℕ)) (hlt : ∀ e ∈ es, e.2 < (build metro tx).fids.length)
    (hpw : es.Pairwise fun e e' => e.2 < e'.2) : (es.map fun e => locAt (build metro tx) e.2).Nodup := by
  have hnd : ((build metro tx).fids.map fun i => ((build metro tx).pins.map (·.loc)).getD i 0).Nodup := by
    rw [(build_locs metro tx).1]; exact List.nodup_dedup _
  rw [List.Nodup, List.pairwise_map]
  refine hpw.imp_of_mem ?_
  intro e e' he he' h heq
  have g : ∀ k (hk : k < (build metro tx).fids.length), locAt (build metro tx) k =
      ((build metro tx).fids.map fun i => ((build metro tx).pins.map (·.loc)).getD i 0)[k]'(by simpa using hk) := by
    intro k hk
    unfold locAt
    rw [List.getD_eq_getElem (d := 0) _ hk, List.getElem_map]
  rw [g _ (hlt e he), g _ (hlt e' he')] at heq
  have := (List.Nodup.getElem_inj_iff hnd).1 heq
  omega

/-- The module variables after any calls are unset or made from one transform. -/
theorem after_build (env : Env) (metro : List Pin) (calls : List Call) :
    after env metro calls = (calls.findSome? fun a => a.tx.toOption).map (build metro) := by
  have gen : ∀ (calls : List Call) (c : Option Cache), calls.foldl (fun cache a => (findfiducials env metro cache a).2) c =
      c.or ((calls.findSome? fun a => a.tx.toOption).map (build metro)) := by
    intro calls
    induction calls with
    | nil => intro c; cases c <;> rfl
    | cons a calls ih =>
      intro c
      rw [List.foldl_cons, ih, List.findSome?_cons]
      unfold findfiducials
      cases htx : a.tx with
      | error e => rfl
      | ok tx => cases c <;> simp [Except.toOption]
  exact gen calls none

end Fid
open Fid

/-- C35: whatever was called before, every run that ends normally labels each spot either with
nothing (LOCATION, PETAL_LOC, DEVICE_LOC -1, PINHOLE_ID 0) or with the LOCATION of a metrology
pinhole and a pinhole id of that location (or 0); for LOCATION ≥ 0 the petal and device numbers
are the unique ones with LOCATION = 1000 PETAL_LOC + DEVICE_LOC; and no two spots get the same
LOCATION and the same positive PINHOLE_ID. -/
theorem C35_labels (env : Env) (hg : Fid.Good env) (metro : List Pin) (calls : List Call) (a : Call) (out : List Label)
    (h : (findfiducials env metro (after env metro calls) a).1 = .ok out) :
    out.length = a.pts.length ∧
    (∀ l ∈ out, l = ⟨-1, -1, -1, 0⟩ ∨ ((∃ p ∈ metro, p.loc = l.loc ∧ (l.pin = 0 ∨ p.id = l.pin)) ∧
      (0 ≤ l.loc → l.loc = 1000 * l.petal + l.dev ∧ 0 ≤ l.dev ∧ l.dev < 1000) ∧
      (l.loc < 0 → l.petal = -1 ∧ l.dev = -1))) ∧
    ∀ (i j : ℕ) (l l' : Label), out[i]? = some l → out[j]? = some l' → l.loc = l'.loc → l.pin = l'.pin → 0 < l.pin → i = j := by
  unfold findfiducials at h
  cases htx : a.tx with
  | error e => rw [htx] at h; cases h
  | ok tx =>
    rw [htx] at h
    dsimp only at h
    obtain ⟨tx0, hc⟩ : ∃ tx0, (after env metro calls).getD (build metro tx) = build metro tx0 := by
      rw [after_build]
      cases hq : calls.findSome? fun a => a.tx.toOption with
      | none => exact ⟨tx, rfl⟩
      | some tx0 => exact ⟨tx0, rfl⟩
    rw [hc] at h
    generalize radius tx a.sep = r at h
    unfold findWith at h
    dsimp only at h
    obtain ⟨x2, hx2, h⟩ := Lemmas.bind_ok h
    obtain ⟨lab, hlab, h⟩ := Lemmas.bind_ok h
    simp only [pure, Except.pure, Except.ok.injEq] at h
    have hlen := iterate_length _ _ _ _ _ _ hx2
    rw [List.length_map] at hlen
    obtain ⟨p1, p2⟩ := pairs_facts env hg.same a.pts r x2
    obtain ⟨D, -, hi⟩ := inv_fold env hg.knn (build metro tx0) a.pts r _ [] _ lab (fun e he => (p1 e he).1)
      (locs_nodup metro tx0 _ (fun e he => hlen ▸ (p1 e he).2) p2) (by simp) ⟨fun s => Or.inl rfl, by
        intro s s' h; exact absurd h (by norm_num)⟩ hlab
    have hfin : ∀ l : Label, (finish l).loc = l.loc ∧ (finish l).pin = l.pin := by
      intro l; unfold finish; split_ifs <;> exact ⟨rfl, rfl⟩
    have hget : ∀ (i : ℕ) (l : Label), out[i]? = some l → l = finish (lab i) := by
      intro i l hl
      rw [← h, List.getElem?_map] at hl
      obtain ⟨s, hs, rfl⟩ := Option.map_eq_some_iff.1 hl
      obtain ⟨h1, h2⟩ := List.getElem?_eq_some_iff.1 hs
      rw [List.getElem_range] at h2
      rw [h2]
    refine ⟨by rw [← h]; simp, ?_, ?_⟩
    · intro l hl
      rw [← h] at hl
      obtain ⟨s, -, rfl⟩ := List.mem_map.1 hl
      rcases hi.row s with hr | ⟨r1, r2, -, p, r4, r5, r6⟩
      · left; rw [hr]; rfl
      · right
        refine ⟨?_, ?_, ?_⟩
        · unfold build at r4
          dsimp only at r4
          obtain ⟨q, hq, rfl⟩ := List.mem_map.1 r4
          rw [(hfin _).1, (hfin _).2]
          exact ⟨q, hq, r5, r6⟩
        · intro h0
          rw [(hfin _).1] at h0
          unfold finish
          rw [if_pos h0]
          dsimp only
          omega
        · intro h0
          rw [(hfin _).1] at h0
          unfold finish
          rw [if_neg (not_le.2 h0)]
          exact ⟨r1, r2⟩
    · intro i j l l' hl hl' e1 e2 e3
      rw [hget i l hl, hget j l' hl', (hfin _).1, (hfin _).1] at e1
      rw [hget i l hl, hget j l' hl', (hfin _).2, (hfin _).2] at e2
      rw [hget i l hl, (hfin _).2] at e3
      exact hi.uniq i j e3 e2.symm e1.symm

/-- C35: the answer to a call depends on earlier calls only through the transform of the first
earlier call whose transform could be read; if all earlier calls used the same one as this call,
the answer is that of a new process. -/
theorem C35_history (env : Env) (metro : List Pin) (calls : List Call) (a : Call) :
    (∀ tx, a.tx = .ok tx → (∀ b ∈ calls, b.tx = .ok tx) →
      (findfiducials env metro (after env metro calls) a).1 = (findfiducials env metro none a).1) ∧
    (∀ b before later, calls = before ++ b :: later → (∀ x ∈ before, x.tx.toOption = none) → b.tx.toOption ≠ none →
      (findfiducials env metro (after env metro calls) a).1 = (findfiducials env metro (after env metro [b]) a).1) := by
  constructor
  · intro tx ha hall
    unfold findfiducials
    rw [ha, after_build]
    cases calls with
    | nil => rfl
    | cons b calls =>
      rw [List.findSome?_cons, hall b (by simp)]
      rfl
  · intro b before later hc hbef hb
    rw [after_build, after_build, hc, List.findSome?_append, List.findSome?_eq_none_iff.2 hbef, List.findSome?_cons,
      List.findSome?_cons]
    cases hbt : b.tx.toOption with
    | none => exact absurd hbt hb
    | some t => rfl

end Verif.Props
