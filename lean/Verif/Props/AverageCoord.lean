import Verif.Model.AverageCoord
import Verif.Props.Match
import Verif.Props.SimpleCorr
import Verif.Lemmas.Pos2ptl
import Mathlib.Data.List.GetD
import Mathlib.Data.List.Forall2

namespace Verif.Props
open Verif.Py
open Verif.Spec (OnLine sqDist Affine)
open Verif.Lemmas.SimpleCorr (firsts)
open Verif.Model.Match Verif.Model.SimpleCorr Verif.Model.AverageCoord

namespace Avg

theorem mem_okPairs (lim : ℝ) (m : List (Option ℕ × WithTop ℝ)) (i j : ℕ) :
    (i, j) ∈ okPairs lim m ↔ ∃ d, m[i]? = some (some j, d) ∧ d < (lim : WithTop ℝ) := by
  unfold okPairs
  rw [List.mem_filterMap]
  constructor
  · rintro ⟨⟨⟨o, d⟩, k⟩, h1, h2⟩
    rw [List.mem_zipIdx_iff_getElem?] at h1
    cases o with
    | none => simp at h2
    | some j' =>
      simp only at h2
      split_ifs at h2 with hd
      simp only [Option.some.injEq, Prod.mk.injEq] at h2
      obtain ⟨rfl, rfl⟩ := h2
      exact ⟨d, h1, hd⟩
  · rintro ⟨d, h1, hd⟩
    refine ⟨((some j, d), i), by rw [List.mem_zipIdx_iff_getElem?]; exact h1, ?_⟩
    simp only
    rw [if_pos hd]

theorem okPairs_pairwise (lim : ℝ) (m : List (Option ℕ × WithTop ℝ)) : (okPairs lim m).Pairwise fun p q => p.1 < q.1 := by
  unfold okPairs
  refine List.Pairwise.filterMap _ (R := fun e f : (Option ℕ × WithTop ℝ) × ℕ => e.2 < f.2) ?_ ?_
  · intro a a' h b hb b' hb'
    rcases a with ⟨⟨_ | j, d⟩, k⟩ <;> rcases a' with ⟨⟨_ | j', d'⟩, k'⟩
    all_goals simp only [reduceCtorEq] at hb hb'
    split_ifs at hb with h1
    split_ifs at hb' with h2
    simp only [Option.some.injEq] at hb hb'
    rw [← hb, ← hb']
    exact h
  · rw [List.pairwise_iff_getElem]
    intro i j hi hj hij
    simpa using hij

structure Good (env : Env) : Prop where
  sorts : Sorts env.argsort
  near : ∀ {m : ℕ} (xy : Fin m → ℝ × ℝ) (h : 0 < m), Nearest (env.nearest xy h) xy

theorem match_facts (env : Env) (hg : Good env) (lim : ℝ) (l1 l2 : List (ℝ × ℝ)) :
    (∀ i j, (i, j) ∈ okPairs lim (matchLists env l1 l2) → i < l1.length ∧ j < l2.length ∧
      dist2 (l1.getD i (0, 0)) (l2.getD j (0, 0)) < lim) ∧
    ((okPairs lim (matchLists env l1 l2)).map Prod.snd).Nodup := by
  have hget : ∀ (i : ℕ) (e : Option ℕ × WithTop ℝ), (matchLists env l1 l2)[i]? = some e → ∃ hi : i < l1.length,
      (matchSame env.argsort (env.nearest l2.get) l1.get l2.get true).1 ⟨i, hi⟩ = e.1 ∧
      (matchSame env.argsort (env.nearest l2.get) l1.get l2.get true).2 ⟨i, hi⟩ = e.2 := by
    intro i e h
    unfold matchLists at h
    rw [List.getElem?_ofFn] at h
    split_ifs at h with hi
    simp only [Option.some.injEq] at h
    exact ⟨hi, by rw [← h], by rw [← h]⟩
  by_cases hm : 0 < l2.length
  · obtain ⟨a1, a2, -, -, a5⟩ := C30_match_same hg.sorts (env.nearest l2.get) l1.get l2.get hm (hg.near _ hm)
    constructor
    · intro i j h
      obtain ⟨d, h1, h2⟩ := (mem_okPairs _ _ _ _).1 h
      obtain ⟨hi, q1, q2⟩ := hget i _ h1
      obtain ⟨hj, q3⟩ := a5 _ _ q1
      refine ⟨hi, hj, ?_⟩
      rw [List.getD_eq_getElem _ _ hi, List.getD_eq_getElem _ _ hj]
      dsimp only at q2
      rw [q3] at q2
      rw [← q2] at h2
      exact WithTop.coe_lt_coe.1 h2
    · rw [List.Nodup, List.pairwise_map]
      refine (okPairs_pairwise _ _).imp_of_mem ?_
      rintro ⟨i, j⟩ ⟨i', j'⟩ hp hq hlt heq
      dsimp only at heq hlt
      subst heq
      obtain ⟨d, h1, -⟩ := (mem_okPairs _ _ _ _).1 hp
      obtain ⟨d', h1', -⟩ := (mem_okPairs _ _ _ _).1 hq
      obtain ⟨hi, q1, -⟩ := hget i _ h1
      obtain ⟨hi', q1', -⟩ := hget i' _ h1'
      have := a2 _ _ _ q1 q1'
      have := Fin.ext_iff.1 this
      simp at this
      omega
  · have h0 : okPairs lim (matchLists env l1 l2) = [] := by
      rw [List.eq_nil_iff_forall_not_mem]
      rintro ⟨i, j⟩ h
      obtain ⟨d, h1, h2⟩ := (mem_okPairs _ _ _ _).1 h
      obtain ⟨hi, q1, q2⟩ := hget i _ h1
      dsimp only at q2
      have : (matchSame env.argsort (env.nearest l2.get) l1.get l2.get true).2 ⟨i, hi⟩ = ⊤ := by
        simp [matchSame, query, hm]
      rw [this] at q2
      rw [← q2] at h2
      exact absurd h2 (by simp)
    rw [h0]
    simp

/-- Coordinates of the averaged rows in a later table. -/
noncomputable def colOf (t2 : List (ℝ × ℝ)) (m : List ℕ × Corr) : List (ℝ × ℝ) :=
  m.1.map fun j => apply m.2 (t2.getD j (0, 0)).1 (t2.getD j (0, 0)).2

/-- `m` pairs the rows `idx` of the first table with rows of `t2`. -/
def Paired (t : List (ℝ × ℝ)) (idx : List ℕ) (t2 : List (ℝ × ℝ)) (m : List ℕ × Corr) : Prop :=
  m.1.Nodup ∧ List.Forall₂ (fun i j => j < t2.length ∧ dist2 (t.getD i (0, 0)) (t2.getD j (0, 0)) < 5) idx m.1

structure Inv (t : List (ℝ × ℝ)) (done : List (List (ℝ × ℝ))) (st : State) (ms : List (List ℕ × Corr)) : Prop where
  cur : st.cur = st.idx.map fun i => t.getD i (0, 0)
  inc : st.idx.Pairwise (· < ·)
  lt : ∀ i ∈ st.idx, i < t.length
  cols : st.cols = (st.idx.map fun i => t.getD i (0, 0)) :: List.zipWith colOf done ms
  paired : List.Forall₂ (Paired t st.idx) done ms

theorem getD_map {α β : Type} (f : α → β) (l : List α) (i : ℕ) (d : α) (e : β) (h : i < l.length) :
    (l.map f).getD i e = f (l.getD i d) := by
  rw [List.getD_eq_getElem _ _ (by simpa using h), List.getD_eq_getElem _ _ h, List.getElem_map]

theorem inv_step (env : Env) (hg : Good env) (t : List (ℝ × ℝ)) (done : List (List (ℝ × ℝ))) (st st' : State)
    (ms : List (List ℕ × Corr)) (hi : Inv t done st ms) (t2 : List (ℝ × ℝ)) (h : step env st t2 = .ok st') :
    ∃ ms', Inv t (done ++ [t2]) st' ms' := by
  obtain ⟨corr, -, h⟩ := Lemmas.bind_ok h
  simp only [pure, Except.pure, Except.ok.injEq] at h
  obtain ⟨f1, f2⟩ := match_facts env hg 5 st.cur t2
  generalize hps : okPairs 5 (matchLists env st.cur t2) = ps at h f1 f2
  have hpw := okPairs_pairwise 5 (matchLists env st.cur t2)
  rw [hps] at hpw
  have hlen : st.cur.length = st.idx.length := by rw [hi.cur, List.length_map]
  have hlt : ∀ p ∈ ps, p.1 < st.idx.length := fun p hp => hlen ▸ (f1 p.1 p.2 hp).1
  have hidx : st'.idx = ps.map fun p => st.idx.getD p.1 0 := by rw [← h]
  refine ⟨ms.map (fun m => (ps.map fun p => m.1.getD p.1 0, m.2)) ++ [(ps.map Prod.snd, corr)], ?_, ?_, ?_, ?_, ?_⟩
  · have hcur : st'.cur = ps.map fun p => st.cur.getD p.1 (0, 0) := by rw [← h]
    rw [hidx, hcur, List.map_map]
    refine List.map_congr_left fun p hp => ?_
    rw [hi.cur]
    exact getD_map _ _ _ _ _ (hlt p hp)
  · rw [hidx, List.pairwise_map]
    refine hpw.imp_of_mem ?_
    intro p q hp hq hpq
    rw [List.getD_eq_getElem _ _ (hlt p hp), List.getD_eq_getElem _ _ (hlt q hq)]
    exact List.pairwise_iff_getElem.1 hi.inc _ _ _ _ hpq
  · rw [hidx]
    intro i him
    obtain ⟨p, hp, rfl⟩ := List.mem_map.1 him
    rw [List.getD_eq_getElem _ _ (hlt p hp)]
    exact hi.lt _ (List.getElem_mem _)
  · rw [hidx]
    have hc : st'.cols = (st.cols.map fun c => ps.map fun p => c.getD p.1 (0, 0)) ++
        [(ps.map fun p => t2.getD p.2 (0, 0)).map fun q => apply corr q.1 q.2] := by rw [← h]
    rw [hc, hi.cols]
    have hlms : done.length = ms.length := hi.paired.length_eq
    rw [List.zipWith_append (by simpa using hlms), List.map_cons, List.cons_append]
    congr 1
    · rw [List.map_map]
      refine List.map_congr_left fun p hp => ?_
      exact getD_map _ _ _ _ _ (hlt p hp)
    · congr 1
      · have := hi.paired
        clear hc hidx hlms hi h
        revert hlt
        induction this with
        | nil => intro _; rfl
        | cons h1 h2 ih =>
          intro hlt
          rw [List.zipWith_cons_cons, List.map_cons, List.map_cons, List.zipWith_cons_cons, ih hlt]
          congr 1
          unfold colOf
          rw [List.map_map]
          refine List.map_congr_left fun p hp => ?_
          have : p.1 < _ := h1.2.length_eq ▸ hlt p hp
          exact getD_map _ _ _ _ _ this
      · unfold colOf
        simp [List.map_map]
  · rw [hidx]
    refine List.rel_append ?_ (.cons ⟨f2, ?_⟩ .nil)
    · have := hi.paired
      clear hidx hi h
      revert hlt
      induction this with
      | nil => intro _; exact .nil
      | @cons d m _ _ h1 h2 ih =>
        intro hlt
        refine .cons ⟨?_, ?_⟩ (ih hlt)
        · rw [List.Nodup, List.pairwise_map]
          refine hpw.imp_of_mem ?_
          intro p q hp hq hpq heq
          have hp' : p.1 < m.1.length := h1.2.length_eq ▸ hlt p hp
          have hq' : q.1 < m.1.length := h1.2.length_eq ▸ hlt q hq
          rw [List.getD_eq_getElem _ _ hp', List.getD_eq_getElem _ _ hq'] at heq
          have := (List.Nodup.getElem_inj_iff h1.1).1 heq
          omega
        · rw [List.forall₂_map_left_iff, List.forall₂_map_right_iff, List.forall₂_same]
          intro p hp
          have hp' : p.1 < m.1.length := h1.2.length_eq ▸ hlt p hp
          rw [List.getD_eq_getElem _ _ hp', List.getD_eq_getElem _ _ (hlt p hp)]
          have := List.Forall₂.get h1.2 (hlt p hp) hp'
          simpa using this
    · rw [List.forall₂_map_left_iff, List.forall₂_map_right_iff, List.forall₂_same]
      intro p hp
      obtain ⟨q1, q2, q3⟩ := f1 p.1 p.2 hp
      refine ⟨q2, ?_⟩
      rw [hi.cur, getD_map _ _ _ 0 _ (hlt p hp)] at q3
      exact q3

theorem inv_fold (env : Env) (hg : Good env) (t : List (ℝ × ℝ)) (ts : List (List (ℝ × ℝ))) :
    ∀ (done : List (List (ℝ × ℝ))) (st st' : State) (ms : List (List ℕ × Corr)), Inv t done st ms →
      ts.foldlM (step env) st = .ok st' → ∃ ms', Inv t (done ++ ts) st' ms' := by
  induction ts with
  | nil =>
    intro done st st' ms hi h
    simp only [List.foldlM_nil, pure, Except.pure, Except.ok.injEq] at h
    rw [List.append_nil, ← h]
    exact ⟨ms, hi⟩
  | cons t2 ts ih =>
    intro done st st' ms hi h
    rw [List.foldlM_cons] at h
    obtain ⟨st1, h1, h⟩ := Lemmas.bind_ok h
    obtain ⟨ms1, hi1⟩ := inv_step env hg t done st st1 ms hi t2 h1
    obtain ⟨ms2, hi2⟩ := ih (done ++ [t2]) st1 st' ms1 hi1 h
    rw [List.append_assoc] at hi2
    exact ⟨ms2, hi2⟩

theorem set_fold (f : ℕ → ℝ × ℝ) (idx : List ℕ) (hn : idx.Nodup) : ∀ (s : ℕ) (t : List (ℝ × ℝ)),
    ((idx.zipIdx s).foldl (fun out e => out.set e.1 (f e.2)) t).length = t.length ∧
    (∀ i, i ∉ idx → ((idx.zipIdx s).foldl (fun out e => out.set e.1 (f e.2)) t)[i]? = t[i]?) ∧
    ∀ k i, idx[k]? = some i → i < t.length →
      ((idx.zipIdx s).foldl (fun out e => out.set e.1 (f e.2)) t)[i]? = some (f (s + k)) := by
  induction idx with
  | nil => intro s t; simp
  | cons a idx ih =>
    intro s t
    rw [List.nodup_cons] at hn
    obtain ⟨h1, h2, h3⟩ := ih hn.2 (s + 1) (t.set a (f s))
    rw [List.zipIdx_cons, List.foldl_cons]
    refine ⟨by rw [h1, List.length_set], ?_, ?_⟩
    · intro i hi
      rw [List.mem_cons, not_or] at hi
      rw [h2 i hi.2, List.getElem?_set_ne (fun h => hi.1 h.symm)]
    · intro k i hk hlt
      cases k with
      | zero =>
        simp only [List.getElem?_cons_zero, Option.some.injEq] at hk
        subst hk
        rw [h2 a hn.1, List.getElem?_set_self hlt]
        rfl
      | succ k =>
        rw [List.getElem?_cons_succ] at hk
        rw [h3 k i hk (by rw [List.length_set]; exact hlt)]
        congr 2
        omega

end Avg

open Avg in
/-- `average_coordinates`: rows keep their places; there is a set `idx` of rows of the first table,
each paired in every other table with one row of its own within 5 (before the correction of that
table), such that all other rows are unchanged and those rows are replaced by the mean over all
tables of the coordinates, corrected by one fitted transformation per table. -/
theorem C37_average (env : Env) (hg : Good env) (t : List (ℝ × ℝ)) (ts : List (List (ℝ × ℝ))) (out : List (ℝ × ℝ))
    (h : average env (t :: ts) = .ok out) :
    ∃ (idx : List ℕ) (ms : List (List ℕ × Corr)), idx.Pairwise (· < ·) ∧ (∀ i ∈ idx, i < t.length) ∧
      List.Forall₂ (fun t2 m => m.1.Nodup ∧ List.Forall₂ (fun i j => j < t2.length ∧
        dist2 (t.getD i (0, 0)) (t2.getD j (0, 0)) < 5) idx m.1) ts ms ∧
      out.length = t.length ∧ (∀ i, i ∉ idx → out[i]? = t[i]?) ∧
      ∀ k i, idx[k]? = some i →
        let pts := t.getD i (0, 0) :: List.zipWith (fun (t2 : List (ℝ × ℝ)) (m : List ℕ × Corr) =>
          apply m.2 (t2.getD (m.1.getD k 0) (0, 0)).1 (t2.getD (m.1.getD k 0) (0, 0)).2) ts ms
        out[i]? = some ((pts.map Prod.fst).sum / (ts.length + 1), (pts.map Prod.snd).sum / (ts.length + 1)) := by
  obtain ⟨st, h1, h2⟩ := Lemmas.bind_ok h
  simp only [pure, Except.pure, Except.ok.injEq] at h2
  have hinit : Inv t [] { cur := t, idx := List.range t.length, cols := [t] } [] := by
    have ht : t = (List.range t.length).map fun i => t.getD i (0, 0) := by
      apply List.ext_getElem
      · simp
      · intro i h1 h2
        simp only [List.getElem_map, List.getElem_range]
        exact (List.getD_eq_getElem _ _ h1).symm
    exact ⟨ht, List.pairwise_lt_range, fun i hi => List.mem_range.1 hi, by simp only [List.zipWith_nil_left]; rw [← ht],
      .nil⟩
  obtain ⟨ms, hi⟩ := inv_fold env hg t ts [] _ st [] hinit h1
  rw [List.nil_append] at hi
  have hnd : st.idx.Nodup := hi.inc.imp fun h => ne_of_lt h
  obtain ⟨s1, s2, s3⟩ := set_fold (meanAt st.cols) st.idx hnd 0 t
  rw [h2] at s1 s2 s3
  refine ⟨st.idx, ms, hi.inc, hi.lt, hi.paired, s1, s2, ?_⟩
  intro k i hk
  have hkl : k < st.idx.length := (List.getElem?_eq_some_iff.1 hk).1
  have hki : st.idx[k] = i := (List.getElem?_eq_some_iff.1 hk).2
  have him : i ∈ st.idx := hki ▸ List.getElem_mem hkl
  dsimp only
  rw [s3 k i hk (hi.lt i him), Nat.zero_add]
  have hcol : st.cols.map (fun c => c.getD k (0, 0)) = t.getD i (0, 0) ::
      List.zipWith (fun (t2 : List (ℝ × ℝ)) (m : List ℕ × Corr) =>
          apply m.2 (t2.getD (m.1.getD k 0) (0, 0)).1 (t2.getD (m.1.getD k 0) (0, 0)).2) ts ms := by
    rw [hi.cols, List.map_cons]
    congr 1
    · rw [getD_map _ _ _ 0 _ hkl, List.getD_eq_getElem _ _ hkl, hki]
    · have := hi.paired
      clear h1 h h2 s1 s2 s3 hinit hi
      induction this with
      | nil => rfl
      | cons h1 h2 ih =>
        rw [List.zipWith_cons_cons, List.map_cons, List.zipWith_cons_cons, ih]
        congr 1
        unfold colOf
        exact getD_map _ _ _ _ _ (h1.2.length_eq ▸ hkl)
  have hcl : st.cols.length = ts.length + 1 := by
    rw [hi.cols, List.length_cons, List.length_zipWith, ← hi.paired.length_eq, min_self]
  have hm : meanAt st.cols k = (((st.cols.map (fun c => c.getD k (0, 0))).map Prod.fst).sum / (ts.length + 1),
      ((st.cols.map (fun c => c.getD k (0, 0))).map Prod.snd).sum / (ts.length + 1)) := by
    unfold meanAt mean
    rw [List.map_map, List.map_map, List.length_map, List.length_map, hcl]
    push_cast
    rfl
  rw [hm, hcol]

open Avg in
/-- With two tables: exactly the rows which `match_same_system` pairs at less than 5 are
averaged, with the corrected position of their partner, and the correction is the least squares
affine map from the second table to the first over these pairs. -/
theorem C37_two_tables (env : Env) (t t2 out : List (ℝ × ℝ)) (h : average env [t, t2] = .ok out) :
    let r := matchSame env.argsort (env.nearest t2.get) t.get t2.get true
    ∃ (c : Corr) (ps : List (ℕ × ℕ)), ps.Nodup ∧
      (∀ i j, (i, j) ∈ ps ↔ ∃ hi : i < t.length, r.1 ⟨i, hi⟩ = some j ∧ r.2 ⟨i, hi⟩ < ((5 : ℝ) : WithTop ℝ)) ∧
      (∀ m : Affine,
        (ps.map fun p => sqDist (t.getD p.1 (0, 0)) (apply c (t2.getD p.2 (0, 0)).1 (t2.getD p.2 (0, 0)).2)).sum ≤
        (ps.map fun p => sqDist (t.getD p.1 (0, 0)) (m.app (t2.getD p.2 (0, 0)))).sum) ∧
      (∀ i j, (i, j) ∈ ps → out[i]? = some
        (((t.getD i (0, 0)).1 + (apply c (t2.getD j (0, 0)).1 (t2.getD j (0, 0)).2).1) / 2,
         ((t.getD i (0, 0)).2 + (apply c (t2.getD j (0, 0)).1 (t2.getD j (0, 0)).2).2) / 2)) ∧
      ∀ i, (∀ j, (i, j) ∉ ps) → out[i]? = t[i]? := by
  intro r
  obtain ⟨st, h1, h2⟩ := Lemmas.bind_ok h
  simp only [pure, Except.pure, Except.ok.injEq] at h2
  rw [List.foldlM_cons] at h1
  obtain ⟨st1, h3, h1⟩ := Lemmas.bind_ok h1
  simp only [List.foldlM_nil, pure, Except.pure, Except.ok.injEq] at h1
  subst h1
  obtain ⟨c, hc, h3⟩ := Lemmas.bind_ok h3
  simp only [pure, Except.pure, Except.ok.injEq] at h3
  have hpw := okPairs_pairwise 5 (matchLists env t t2)
  have hmem := mem_okPairs 5 (matchLists env t t2)
  generalize hps : okPairs 5 (matchLists env t t2) = ps at hc h3 hpw hmem
  have hmem' : ∀ i j, (i, j) ∈ ps ↔ ∃ hi : i < t.length, r.1 ⟨i, hi⟩ = some j ∧ r.2 ⟨i, hi⟩ < ((5 : ℝ) : WithTop ℝ) := by
    intro i j
    rw [hmem]
    unfold matchLists
    constructor
    · rintro ⟨d, e1, e2⟩
      rw [List.getElem?_ofFn] at e1
      split_ifs at e1 with hi
      simp only [Option.some.injEq, Prod.mk.injEq] at e1
      exact ⟨hi, e1.1, by rw [← e1.2] at e2; exact e2⟩
    · rintro ⟨hi, e1, e2⟩
      refine ⟨_, ?_, e2⟩
      rw [List.getElem?_ofFn, dif_pos hi, ← e1]
  have hlt : ∀ p ∈ ps, p.1 < t.length := fun p hp => ((hmem' p.1 p.2).1 hp).1
  have hidx : st1.idx = ps.map Prod.fst := by
    rw [← h3]
    refine List.map_congr_left fun p hp => ?_
    rw [List.getD_eq_getElem _ _ (by simpa using hlt p hp), List.getElem_range]
  have hcols : st1.cols = [ps.map fun p => t.getD p.1 (0, 0),
      ps.map fun p => apply c (t2.getD p.2 (0, 0)).1 (t2.getD p.2 (0, 0)).2] := by
    rw [← h3]; simp [List.map_map]
  have hnd : (ps.map Prod.fst).Nodup := by
    rw [List.Nodup, List.pairwise_map]
    exact hpw.imp fun h => ne_of_lt h
  obtain ⟨-, s2, s3⟩ := set_fold (meanAt st1.cols) (ps.map Prod.fst) hnd 0 t
  rw [← hidx, h2] at s2 s3
  refine ⟨c, ps, hpw.imp fun h e => by rw [e] at h; exact lt_irrefl _ h, hmem', ?_, ?_, ?_⟩
  · intro m
    have := (C22_optimal _ c hc).2.1 m
    simp only [List.zipWith_map, List.zipWith_self, List.map_map] at this
    exact this
  · intro i j hij
    obtain ⟨k, hk, hkp⟩ := List.getElem_of_mem hij
    have hki : st1.idx[k]? = some i := by
      rw [hidx, List.getElem?_map, List.getElem?_eq_getElem hk, hkp]; rfl
    rw [s3 k i hki (hlt _ hij), Nat.zero_add, hcols]
    unfold meanAt mean
    have e1 : (ps.map fun p => t.getD p.1 (0, 0)).getD k (0, 0) = t.getD i (0, 0) := by
      rw [getD_map _ _ _ (0, 0) _ hk, List.getD_eq_getElem _ _ hk, hkp]
    have e2 : (ps.map fun p => apply c (t2.getD p.2 (0, 0)).1 (t2.getD p.2 (0, 0)).2).getD k (0, 0) =
        apply c (t2.getD j (0, 0)).1 (t2.getD j (0, 0)).2 := by
      rw [getD_map _ _ _ (0, 0) _ hk, List.getD_eq_getElem _ _ hk, hkp]
    simp only [List.map_cons, List.map_nil, e1, e2, List.sum_cons, List.sum_nil, List.length_cons, List.length_nil]
    norm_num
  · intro i hi
    apply s2
    rw [hidx, List.mem_map]
    rintro ⟨⟨a, b⟩, hab, rfl⟩
    exact hi b hab

open Avg in
/-- Without a table there is an exception; a single table, and a table averaged with any number
of exact copies of itself (distinct points, not on a line), is returned unchanged. -/
theorem C37_copies (env : Env) (hg : Good env) :
    average env [] = .error .valueError ∧ (∀ t, average env [t] = .ok t) ∧
    ∀ (t : List (ℝ × ℝ)) (n : ℕ), t.Nodup → ¬ OnLine t → average env (t :: List.replicate n t) = .ok t := by
  have hself : ∀ (t : List (ℝ × ℝ)) (cols : List (List (ℝ × ℝ))), (∀ c ∈ cols, c = t) → cols ≠ [] →
      ((List.range t.length).zipIdx).foldl (fun out e => out.set e.1 (meanAt cols e.2)) t = t := by
    intro t cols hc hne
    obtain ⟨-, s2, s3⟩ := set_fold (meanAt cols) (List.range t.length) List.nodup_range 0 t
    apply List.ext_getElem?
    intro i
    by_cases hi : i < t.length
    · rw [s3 i i (by simp [hi]) hi, Nat.zero_add, List.getElem?_eq_getElem hi]
      have hk : ∀ f : ℝ × ℝ → ℝ, mean (cols.map fun c => f (c.getD i (0, 0))) = f t[i] := by
        intro f
        have : (cols.map fun c => f (c.getD i (0, 0))) = List.replicate cols.length (f t[i]) := by
          rw [List.eq_replicate_iff]
          refine ⟨by simp, ?_⟩
          intro b hb
          obtain ⟨c, hcm, rfl⟩ := List.mem_map.1 hb
          rw [hc c hcm, List.getD_eq_getElem _ _ hi]
        have hl : (cols.length : ℝ) ≠ 0 := by
          rw [Nat.cast_ne_zero]; exact fun h => hne (List.length_eq_zero_iff.1 h)
        rw [this]
        unfold mean
        rw [List.sum_replicate, List.length_replicate, nsmul_eq_mul]
        field_simp
      unfold meanAt
      rw [hk Prod.fst, hk Prod.snd]
    · exact s2 i (by simpa using hi)
  refine ⟨rfl, ?_, ?_⟩
  · intro t
    show Except.ok _ = _
    rw [hself t [t] (by simp) (by simp)]
  · intro t n hnd hl
    have hstep : ∀ cols : List (List (ℝ × ℝ)), (∀ c ∈ cols, c = t) →
        step env ⟨t, List.range t.length, cols⟩ t = .ok ⟨t, List.range t.length, cols ++ [t]⟩ := by
      intro cols hc
      have ht : t = (List.range t.length).map fun i => t.getD i (0, 0) := by
        apply List.ext_getElem
        · simp
        · intro i h1 h2
          simp only [List.getElem_map, List.getElem_range]
          exact (List.getD_eq_getElem _ _ h1).symm
      have hps : okPairs 5 (matchLists env t t) = (List.range t.length).map fun i => (i, i) := by
        have hm : 0 < t.length := by
          rw [List.length_pos_iff]
          rintro rfl
          exact hl ⟨1, 0, 0, by simp, by simp⟩
        obtain ⟨a1, a2, a3, a4, a5⟩ := C30_match_same hg.sorts (env.nearest t.get) t.get t.get hm (hg.near _ hm)
        have hd0 : ∀ p q : ℝ × ℝ, dist2 p q ≤ dist2 p p → q = p := by
          intro p q h
          unfold dist2 at h
          simp only [sub_self] at h
          norm_num at h
          have := Real.sqrt_eq_zero'.1 (le_antisymm h (Real.sqrt_nonneg _))
          have e1 : p.1 - q.1 = 0 := by nlinarith [sq_nonneg (p.1 - q.1), sq_nonneg (p.2 - q.2)]
          have e2 : p.2 - q.2 = 0 := by nlinarith [sq_nonneg (p.1 - q.1), sq_nonneg (p.2 - q.2)]
          ext <;> linarith
        have hown : ∀ (i : Fin t.length) j, ∀ h : j < t.length,
            (∀ k, dist2 (t.get i) (t.get ⟨j, h⟩) ≤ dist2 (t.get i) (t.get k)) → j = i := by
          intro i j hj h
          have := hd0 _ _ (h i)
          have := (List.Nodup.getElem_inj_iff hnd).1 this
          exact this
        have hall : ∀ i : Fin t.length,
            (matchSame env.argsort (env.nearest t.get) t.get t.get true).1 i = some (i : ℕ) := by
          intro i
          cases hr : (matchSame env.argsort (env.nearest t.get) t.get t.get true).1 i with
          | none =>
            obtain ⟨i0, j, hj, q1, q2, q3, q4⟩ := a3 i hr
            obtain ⟨hj', q5⟩ := a1 i0 j q1
            have e1 := hown i0 j hj' q5
            have e2 := hown i j hj q3
            exact absurd (Fin.ext (e1.symm.trans e2)) q2
          | some j =>
            obtain ⟨hj, q⟩ := a1 i j hr
            rw [hown i j hj q]
        have hmem : ∀ i j, (i, j) ∈ okPairs 5 (matchLists env t t) ↔ i < t.length ∧ j = i := by
          intro i j
          rw [mem_okPairs]
          unfold matchLists
          constructor
          · rintro ⟨d, e1, e2⟩
            rw [List.getElem?_ofFn] at e1
            split_ifs at e1 with hi
            simp only [Option.some.injEq, Prod.mk.injEq] at e1
            rw [hall] at e1
            simp only [Option.some.injEq] at e1
            exact ⟨hi, e1.1.symm⟩
          · rintro ⟨hi, rfl⟩
            obtain ⟨hj, q⟩ := a5 ⟨j, hi⟩ j (hall _)
            refine ⟨(matchSame env.argsort (env.nearest t.get) t.get t.get true).2 ⟨j, hi⟩, ?_, ?_⟩
            · rw [List.getElem?_ofFn, dif_pos hi, hall]
            · rw [q]
              have : dist2 (t.get ⟨j, hi⟩) (t.get ⟨j, hj⟩) = 0 := by unfold dist2; simp
              rw [this]
              exact WithTop.coe_lt_coe.2 (by norm_num)
        have hp1 := okPairs_pairwise 5 (matchLists env t t)
        have hp2 : ((List.range t.length).map fun i => (i, i)).Pairwise fun p q : ℕ × ℕ => p.1 < q.1 := by
          rw [List.pairwise_map]; exact List.pairwise_lt_range
        refine List.Perm.eq_of_pairwise (le := fun p q : ℕ × ℕ => p.1 < q.1)
          (fun a b _ _ h1 h2 => absurd (lt_trans h1 h2) (lt_irrefl _)) hp1 hp2 ?_
        rw [List.perm_ext_iff_of_nodup (hp1.imp fun h e => by rw [e] at h; exact lt_irrefl _ h)
          (hp2.imp fun h e => by rw [e] at h; exact lt_irrefl _ h)]
        rintro ⟨i, j⟩
        rw [hmem, List.mem_map]
        constructor
        · rintro ⟨h1, rfl⟩; exact ⟨j, List.mem_range.2 h1, rfl⟩
        · rintro ⟨k, hk, e⟩
          simp only [Prod.mk.injEq] at e
          obtain ⟨rfl, rfl⟩ := e
          exact ⟨List.mem_range.1 hk, rfl⟩
      have hp : List.zipWith (fun a b : ℝ × ℝ => (⟨a.1, a.2, b.1, b.2⟩ : Verif.Model.SimpleCorr.Pair)) t t =
          t.map fun a => ⟨a.1, a.2, a.1, a.2⟩ := List.zipWith_self
      obtain ⟨c, hc1, hc2, -⟩ := (C22_exact ⟨0, 0, 1, 0, 0, 1⟩ (t.map fun a => ⟨a.1, a.2, a.1, a.2⟩)
        (by simpa [firsts, Function.comp_def] using hl) (by
          intro q hq
          obtain ⟨a, -, rfl⟩ := List.mem_map.1 hq
          simp [Affine.app])).1 (by norm_num)
      have hcap : ∀ q : ℝ × ℝ, apply c q.1 q.2 = q := by
        intro q; rw [hc2]; simp [Affine.app]
      unfold step
      simp only [hps, List.map_map, Function.comp_def]
      rw [← ht, hp, hc1]
      show Except.ok _ = _
      congr 2
      · conv_rhs => rw [← List.map_id (List.range t.length)]
        refine List.map_congr_left fun p hp => ?_
        have := List.mem_range.1 hp
        rw [List.getD_eq_getElem _ _ (by simpa using this), List.getElem_range]; rfl
      · congr 1
        · conv_rhs => rw [← List.map_id cols]
          refine List.map_congr_left fun p hp => ?_
          rw [hc p hp, ← ht]; rfl
        · simp only [hcap]
          rw [← ht]
    have hfold : ∀ (n : ℕ) (cols : List (List (ℝ × ℝ))), (∀ c ∈ cols, c = t) → cols ≠ [] →
        ∃ cols', (∀ c ∈ cols', c = t) ∧ cols' ≠ [] ∧ (List.replicate n t).foldlM (step env)
          ⟨t, List.range t.length, cols⟩ = .ok ⟨t, List.range t.length, cols'⟩ := by
      intro n
      induction n with
      | zero => intro cols h1 h2; exact ⟨cols, h1, h2, rfl⟩
      | succ n ih =>
        intro cols h1 h2
        rw [List.replicate_succ, List.foldlM_cons, hstep cols h1]
        obtain ⟨cols', q1, q2, q3⟩ := ih (cols ++ [t]) (by
          intro c hc
          rcases List.mem_append.1 hc with h | h
          · exact h1 c h
          · simpa using h) (by simp)
        exact ⟨cols', q1, q2, q3⟩
    obtain ⟨cols', q1, q2, q3⟩ := hfold n [t] (by simp) (by simp)
    unfold average
    dsimp only
    rw [q3]
    show Except.ok _ = _
    rw [hself t cols' q1 q2]

open Avg in
/-- The hypotheses can be met: there is such an environment, and three points to average. -/
example : (∃ env : Env, Good env) ∧ ∃ t : List (ℝ × ℝ), t.Nodup ∧ ¬ OnLine t := by
  constructor
  · have hs := sorts_exists (κ := WithTop ℝ)
    have : ∀ (m : ℕ) (xy : Fin m → ℝ × ℝ) (h : 0 < m) (p : ℝ × ℝ), ∃ i, ∀ k, dist2 p (xy i) ≤ dist2 p (xy k) := by
      intro m xy h p
      have : Nonempty (Fin m) := ⟨⟨0, h⟩⟩
      exact Finite.exists_min fun i => dist2 p (xy i)
    refine ⟨⟨_, fun {m} xy h p => (this m xy h p).choose⟩, hs, ?_⟩
    intro m xy h p k
    exact (this m xy h p).choose_spec k
  · refine ⟨[(0, 0), (1, 0), (0, 1)], by simp, ?_⟩
    rintro ⟨a, b, c, hne, h⟩
    have h1 := h (0, 0) (by simp)
    have h2 := h (1, 0) (by simp)
    have h3 := h (0, 1) (by simp)
    simp only at h1 h2 h3
    apply hne
    have : a = 0 := by linarith
    have : b = 0 := by linarith
    have : c = 0 := by linarith
    simp [*]

end Verif.Props
