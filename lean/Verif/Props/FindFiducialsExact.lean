import Verif.Props.FindFiducials

/-!
# Property C35: exact recovery of the pinholes, and dependence on the first transform
-/

namespace Verif.Props
open Verif.Py Verif.Model.Match Verif.Model.FindFiducials Verif.Model.SimpleCorr
open Verif.Model.AverageCoord (okPairs matchLists)
open Verif.Spec (OnLine Affine)
open Verif.Lemmas.SimpleCorr (firsts)

namespace Fid

theorem dist2_self (p : ℝ × ℝ) : dist2 p p = 0 := by unfold dist2; simp

theorem dist2_comm (p q : ℝ × ℝ) : dist2 p q = dist2 q p := by
  unfold dist2; congr 1; ring

theorem eq_of_dist2 {p q : ℝ × ℝ} (h : dist2 p q ≤ 0) : p = q := by
  unfold dist2 at h
  have := Real.sqrt_eq_zero'.1 (le_antisymm h (Real.sqrt_nonneg _))
  have e1 : p.1 - q.1 = 0 := by nlinarith [sq_nonneg (p.1 - q.1), sq_nonneg (p.2 - q.2)]
  have e2 : p.2 - q.2 = 0 := by nlinarith [sq_nonneg (p.1 - q.1), sq_nonneg (p.2 - q.2)]
  ext <;> linarith

theorem match_exact (env : Verif.Model.AverageCoord.Env) (hg : Avg.Good env) (l1 l2 : List (ℝ × ℝ)) (h1 : l1.Nodup)
    (h2 : l2.Nodup) (i : Fin l1.length) (j : Fin l2.length) (h : l1[i] = l2[j]) :
    (matchSame env.argsort (env.nearest l2.get) l1.get l2.get true).1 i = some (j : ℕ) ∧
    (matchSame env.argsort (env.nearest l2.get) l1.get l2.get true).2 i = ((0 : ℝ) : WithTop ℝ) := by
  have hm : 0 < l2.length := lt_of_le_of_lt (Nat.zero_le _) j.2
  obtain ⟨a1, a2, a3, a4, a5⟩ := C30_match_same hg.sorts (env.nearest l2.get) l1.get l2.get hm (hg.near _ hm)
  have h' : l1.get i = l2.get j := h
  have hown : ∀ (i' : Fin l1.length) (j' : ℕ) (hj : j' < l2.length), l1.get i' = l2.get j →
      (∀ k, dist2 (l1.get i') (l2.get ⟨j', hj⟩) ≤ dist2 (l1.get i') (l2.get k)) → j' = j := by
    intro i' j' hj he hle
    have := hle j
    rw [he, dist2_self] at this
    have := eq_of_dist2 this
    exact ((List.Nodup.getElem_inj_iff h2).1 this).symm
  have hidx : (matchSame env.argsort (env.nearest l2.get) l1.get l2.get true).1 i = some (j : ℕ) := by
    cases hr : (matchSame env.argsort (env.nearest l2.get) l1.get l2.get true).1 i with
    | none =>
      obtain ⟨i0, j', hj, q1, q2, q3, q4⟩ := a3 i hr
      have e := hown i j' hj h' q3
      subst e
      rw [h', dist2_self] at q4
      have e3 : l1.get i0 = l1.get i := (eq_of_dist2 q4).trans h'.symm
      have := (List.Nodup.getElem_inj_iff h1).1 e3
      exact absurd (Fin.ext this) q2
    | some j' =>
      obtain ⟨hj, q⟩ := a1 i j' hr
      rw [hown i j' hj h' q]
  refine ⟨hidx, ?_⟩
  obtain ⟨hj, q⟩ := a5 i j hidx
  rw [q, h', dist2_self]

/-- Matching of two catalogues one of which contains the other. -/
theorem match_sub (env : Verif.Model.AverageCoord.Env) (hg : Avg.Good env) (l1 l2 : List (ℝ × ℝ)) (h1 : l1.Nodup)
    (h2 : l2.Nodup) (hne : l2 ≠ []) (hsub : (∀ x ∈ l1, x ∈ l2) ∨ ∀ x ∈ l2, x ∈ l1) :
    (∀ lim : ℝ, 0 < lim → ∀ i j, (i, j) ∈ okPairs lim (matchLists env l1 l2) ↔ ∃ x, l1[i]? = some x ∧ l2[j]? = some x) ∧
    ∀ d ∈ matchedDist (matchLists env l1 l2), d = 0 := by
  have hm : 0 < l2.length := List.length_pos_iff.2 hne
  obtain ⟨a1, a2, -, -, -⟩ := C30_match_same hg.sorts (env.nearest l2.get) l1.get l2.get hm (hg.near _ hm)
  have hiff : ∀ (i : Fin l1.length) (j : ℕ),
      (matchSame env.argsort (env.nearest l2.get) l1.get l2.get true).1 i = some j →
        ∃ hj : j < l2.length, l1[i] = l2[j] := by
    intro i j h
    obtain ⟨hj, -⟩ := a1 i j h
    refine ⟨hj, ?_⟩
    rcases hsub with hs | hs
    · obtain ⟨j', hj', e⟩ := List.getElem_of_mem (hs l1[i] (List.getElem_mem _))
      have := (match_exact env hg l1 l2 h1 h2 i ⟨j', hj'⟩ e.symm).1
      rw [h] at this
      injection this with this
      subst this
      exact e.symm
    · obtain ⟨i', hi', e⟩ := List.getElem_of_mem (hs l2[j] (List.getElem_mem _))
      have := (match_exact env hg l1 l2 h1 h2 ⟨i', hi'⟩ ⟨j, hj⟩ e).1
      have := a2 i ⟨i', hi'⟩ j h this
      subst this
      exact e
  have hget : ∀ (i : ℕ) (e : Option ℕ × WithTop ℝ), (matchLists env l1 l2)[i]? = some e ↔ ∃ hi : i < l1.length,
      (matchSame env.argsort (env.nearest l2.get) l1.get l2.get true).1 ⟨i, hi⟩ = e.1 ∧
      (matchSame env.argsort (env.nearest l2.get) l1.get l2.get true).2 ⟨i, hi⟩ = e.2 := by
    intro i e
    unfold matchLists
    rw [List.getElem?_ofFn]
    constructor
    · intro h
      split_ifs at h with hi
      simp only [Option.some.injEq] at h
      exact ⟨hi, by rw [← h], by rw [← h]⟩
    · rintro ⟨hi, e1, e2⟩
      rw [dif_pos hi, e1, e2]
  constructor
  · intro lim hlim i j
    rw [Avg.mem_okPairs]
    constructor
    · rintro ⟨d, e1, -⟩
      obtain ⟨hi, q, -⟩ := (hget i _).1 e1
      obtain ⟨hj, q'⟩ := hiff ⟨i, hi⟩ j q
      refine ⟨l2[j], ?_, List.getElem?_eq_getElem hj⟩
      rw [List.getElem?_eq_getElem hi]
      exact congrArg some q'
    · rintro ⟨x, e1, e2⟩
      obtain ⟨hi, e1⟩ := List.getElem?_eq_some_iff.1 e1
      obtain ⟨hj, e2⟩ := List.getElem?_eq_some_iff.1 e2
      obtain ⟨q1, q2⟩ := match_exact env hg l1 l2 h1 h2 ⟨i, hi⟩ ⟨j, hj⟩ (e1.trans e2.symm)
      exact ⟨((0 : ℝ) : WithTop ℝ), (hget i _).2 ⟨hi, q1, q2⟩, WithTop.coe_lt_coe.2 hlim⟩
  · intro d hd
    unfold matchedDist at hd
    rw [List.mem_filterMap] at hd
    obtain ⟨⟨o, w⟩, he, hd⟩ := hd
    obtain ⟨i, hi, he⟩ := List.getElem_of_mem he
    have := (hget i (o, w)).1 (by rw [List.getElem?_eq_getElem hi, he])
    obtain ⟨hi', q1, q2⟩ := this
    dsimp only at q1 q2
    cases o with
    | none => simp at hd
    | some j =>
      obtain ⟨hj, q'⟩ := hiff ⟨i, hi'⟩ j q1
      have := (match_exact env hg l1 l2 h1 h2 ⟨i, hi'⟩ ⟨j, hj⟩ q').2
      rw [this] at q2
      rw [← q2] at hd
      simp only [Option.some.injEq] at hd
      exact hd.symm

theorem median_zero (l : List ℝ) (h : ∀ d ∈ l, d = 0) : Verif.Model.MatchPositioners.median l = 0 := by
  unfold Verif.Model.MatchPositioners.median
  have : ∀ k, (pySort id l).getD k 0 = 0 := by
    intro k
    rw [List.getD_eq_getElem?_getD]
    cases hk : (pySort id l)[k]? with
    | none => rfl
    | some x =>
      have := List.mem_of_getElem? hk
      rw [Lemmas.mem_pySort] at this
      exact h x this
  simp only [this]
  norm_num

theorem iterate_exact (env : Env) (hg : Avg.Good env.same) (x1 x2 : List (ℝ × ℝ)) (h1 : x1.Nodup) (h2 : x2.Nodup)
    (hsub : ∀ x ∈ x2, x ∈ x1) (hl : ¬ OnLine x2) (k : ℕ) : iterate env x1 (k + 1) x2 0 = .ok x2 := by
  have hne : x2 ≠ [] := by
    rintro rfl
    exact hl ⟨1, 0, 0, by simp, by simp⟩
  obtain ⟨m1, m2⟩ := match_sub env.same hg x1 x2 h1 h2 hne (Or.inr hsub)
  have hmed := median_zero _ m2
  unfold iterate
  simp only [hmed]
  have hlim : (0 : ℝ) < if k = 0 then 10 else max 10 (3 * (14 / 10) * 0) := by
    split_ifs <;> norm_num
  generalize (if k = 0 then (10 : ℝ) else max 10 (3 * (14 / 10) * 0)) = lim at hlim
  have hmem := m1 lim hlim
  generalize okPairs lim (matchLists env.same x1 x2) = ps at hmem
  have hps : ∀ p ∈ ps, ∃ x ∈ x2, x1.getD p.1 (0, 0) = x ∧ x2.getD p.2 (0, 0) = x := by
    intro p hp
    obtain ⟨x, e1, e2⟩ := (hmem p.1 p.2).1 hp
    refine ⟨x, List.mem_of_getElem? e2, ?_, ?_⟩
    · rw [List.getD_eq_getElem?_getD, e1]; rfl
    · rw [List.getD_eq_getElem?_getD, e2]; rfl
  obtain ⟨c, hc1, hc2, -⟩ := (C22_exact ⟨0, 0, 1, 0, 0, 1⟩ (ps.map fun p =>
      ⟨(x2.getD p.2 (0, 0)).1, (x2.getD p.2 (0, 0)).2, (x1.getD p.1 (0, 0)).1, (x1.getD p.1 (0, 0)).2⟩) (by
      intro ho
      apply hl
      obtain ⟨a, b, c, hne, ho⟩ := ho
      refine ⟨a, b, c, hne, ?_⟩
      intro q hq
      obtain ⟨j, hj, e⟩ := List.getElem_of_mem hq
      obtain ⟨i, hi, e'⟩ := List.getElem_of_mem (hsub q hq)
      have hp : (i, j) ∈ ps := (hmem i j).2 ⟨q, by rw [List.getElem?_eq_getElem hi, e'], by
        rw [List.getElem?_eq_getElem hj, e]⟩
      apply ho
      unfold firsts
      rw [List.mem_map]
      refine ⟨_, List.mem_map_of_mem hp, ?_⟩
      dsimp only
      rw [List.getD_eq_getElem _ _ hj, e]) (by
      intro q hq
      obtain ⟨p, hp, rfl⟩ := List.mem_map.1 hq
      obtain ⟨x, -, e1, e2⟩ := hps p hp
      simp only [e1, e2, Affine.app]
      ext <;> simp)).1 (by norm_num)
  rw [hc1]
  have hap : (x2.map fun q => apply c q.1 q.2) = x2 := by
    conv_rhs => rw [← List.map_id x2]
    refine List.map_congr_left fun q _ => ?_
    rw [hc2]; simp [Affine.app]
  show (if |(0 : ℝ) - 0| < 1 / 10000 then Except.ok (x2.map fun q => apply c q.1 q.2) else _) = _
  rw [if_pos (by norm_num), hap]

/-- Pixel position of a metrology pinhole. -/
def pix (tx : Tx) (p : Pin) : ℝ × ℝ := tx.toPix p.fp

/-- Exactly measured, well separated fiducials of four pinholes, among other spots. -/
structure Exact (metro : List Pin) (tx : Tx) (r : WithTop ℝ) (pts : List (ℝ × ℝ)) : Prop where
  distinct : (metro.map (pix tx)).Nodup
  ptsNodup : pts.Nodup
  /-- every pinhole is seen where the transform puts it -/
  seen : ∀ p ∈ metro, pix tx p ∈ pts
  four : ∀ p ∈ metro, (metro.filter fun q => q.loc = p.loc).length = 4
  near : ∀ p ∈ metro, ∀ q ∈ metro, q.loc = p.loc → ((dist2 (pix tx p) (pix tx q) : ℝ) : WithTop ℝ) < r
  far : ∀ p ∈ metro, ∀ q ∈ metro, q.loc ≠ p.loc → ¬ ((dist2 (pix tx p) (pix tx q) : ℝ) : WithTop ℝ) < r
  /-- other spots are away from the pinholes and do not form groups of four -/
  other : ∀ x ∈ pts, x ∉ metro.map (pix tx) → (∀ p ∈ metro, ¬ ((dist2 (pix tx p) x : ℝ) : WithTop ℝ) < r) ∧
    ∀ l : List (ℝ × ℝ), l.Nodup → (∀ y ∈ l, y ∈ pts ∧ ((dist2 x y : ℝ) : WithTop ℝ) < r) → l.length < 4
  ids : ∀ p ∈ metro, ∀ q ∈ metro, q.loc = p.loc → q.id = p.id → q = p
  loc0 : ∀ p ∈ metro, 0 ≤ p.loc
  xs : ∀ p ∈ metro, ∀ q ∈ metro, q.loc = p.loc → (pix tx q).1 = (pix tx p).1 → q = p
  /-- the triangles of a fiducial have different shapes -/
  shapes : ∀ a ∈ metro, ∀ b ∈ metro, ∀ c ∈ metro, ∀ a' ∈ metro, ∀ b' ∈ metro, ∀ c' ∈ metro,
    b.loc = a.loc → c.loc = a.loc → a'.loc = a.loc → b'.loc = a.loc → c'.loc = a.loc →
    (pix tx a).1 < (pix tx b).1 → (pix tx b).1 < (pix tx c).1 →
    (pix tx a').1 < (pix tx b').1 → (pix tx b').1 < (pix tx c').1 →
    descriptor (pix tx a) (pix tx b) (pix tx c) = descriptor (pix tx a') (pix tx b') (pix tx c') →
    a = a' ∧ b = b' ∧ c = c'
  /-- pinholes chosen from every fiducial are not on a line -/
  noLine : ∀ l : List (ℝ × ℝ), (∀ p ∈ metro, ∃ q ∈ metro, q.loc = p.loc ∧ pix tx q ∈ l) → ¬ OnLine l

section
variable {metro : List Pin} {tx : Tx} {r : WithTop ℝ} {pts : List (ℝ × ℝ)}

theorem pins_get (i : ℕ) (p : Pin) (h : metro[i]? = some p) :
    (build metro tx).pins[i]? = some ⟨p.loc, p.id, pix tx p⟩ := by
  unfold build; dsimp only; rw [List.getElem?_map, h]; rfl

theorem pins_get' (i : ℕ) (c : CPin) (h : (build metro tx).pins[i]? = some c) :
    ∃ p, metro[i]? = some p ∧ c = ⟨p.loc, p.id, pix tx p⟩ := by
  unfold build at h; dsimp only at h
  rw [List.getElem?_map, Option.map_eq_some_iff] at h
  obtain ⟨p, h1, h2⟩ := h
  exact ⟨p, h1, h2.symm⟩

theorem pixAt_eq (i : ℕ) (p : Pin) (h : metro[i]? = some p) : pixAt (build metro tx).pins i = pix tx p := by
  unfold pixAt
  rw [List.getD_eq_getElem?_getD, List.getElem?_map, pins_get i p h]; rfl

theorem rows_iff (loc : ℤ) (i : ℕ) : i ∈ rowsOf (build metro tx).pins loc ↔ ∃ p, metro[i]? = some p ∧ p.loc = loc := by
  rw [mem_rowsOf]
  constructor
  · rintro ⟨c, h1, h2⟩
    obtain ⟨p, h3, rfl⟩ := pins_get' i c h1
    exact ⟨p, h3, h2⟩
  · rintro ⟨p, h1, h2⟩
    exact ⟨_, pins_get i p h1, h2⟩

theorem pix_inj (he : Exact metro tx r pts) {p q : Pin} (hp : p ∈ metro) (hq : q ∈ metro) (h : pix tx p = pix tx q) :
    p = q := List.inj_on_of_nodup_map he.distinct hp hq h

/-- Rows of the spots nearer than `r` to the spot of a pinhole. -/
theorem near_iff (he : Exact metro tx r pts) (s t : ℕ) (p : Pin) (hp : p ∈ metro) (hs : pts[s]? = some (pix tx p)) :
    (t < pts.length ∧ ((dist2 (pts.getD s (0, 0)) (pts.getD t (0, 0)) : ℝ) : WithTop ℝ) < r) ↔
      ∃ q ∈ metro, q.loc = p.loc ∧ pts[t]? = some (pix tx q) := by
  have es : pts.getD s (0, 0) = pix tx p := by rw [List.getD_eq_getElem?_getD, hs]; rfl
  rw [es]
  constructor
  · rintro ⟨ht, hd⟩
    rw [List.getD_eq_getElem _ _ ht] at hd
    by_cases hm : pts[t] ∈ metro.map (pix tx)
    · obtain ⟨q, hq, e⟩ := List.mem_map.1 hm
      refine ⟨q, hq, ?_, by rw [List.getElem?_eq_getElem ht, e]⟩
      by_contra hne
      rw [← e] at hd
      exact he.far p hp q hq hne hd
    · exact absurd hd ((he.other _ (List.getElem_mem _) hm).1 p hp)
  · rintro ⟨q, hq, hl, ht⟩
    refine ⟨(List.getElem?_eq_some_iff.1 ht).1, ?_⟩
    have : pts.getD t (0, 0) = pix tx q := by rw [List.getD_eq_getElem?_getD, ht]; rfl
    rw [this]
    exact he.near p hp q hq hl

theorem knn_pin (env : Env) (hk : KnnOk env.knn) (he : Exact metro tx r pts) (s : ℕ) (p : Pin) (hp : p ∈ metro)
    (hs : pts[s]? = some (pix tx p)) :
    (env.knn pts r s).Nodup ∧ (env.knn pts r s).length = 4 ∧
    ∀ t, t ∈ env.knn pts r s ↔ ∃ q ∈ metro, q.loc = p.loc ∧ pts[t]? = some (pix tx q) := by
  obtain ⟨k1, k2, k3, k4⟩ := hk pts r s (List.getElem?_eq_some_iff.1 hs).1
  generalize env.knn pts r s = K at *
  classical
  set W := (List.range pts.length).filter fun t => ∃ q ∈ metro, q.loc = p.loc ∧ pts[t]? = some (pix tx q) with hW
  have hWn : W.Nodup := List.nodup_range.filter _
  have hWm : ∀ t, t ∈ W ↔ ∃ q ∈ metro, q.loc = p.loc ∧ pts[t]? = some (pix tx q) := by
    intro t
    rw [hW, List.mem_filter, List.mem_range]
    simp only [decide_eq_true_eq]
    constructor
    · rintro ⟨-, h⟩; exact h
    · rintro ⟨q, h1, h2, h3⟩
      exact ⟨(List.getElem?_eq_some_iff.1 h3).1, q, h1, h2, h3⟩
  have hget : ∀ t q, pts[t]? = some (pix tx q) → pts.getD t (0, 0) = pix tx q := by
    intro t q h; rw [List.getD_eq_getElem?_getD, h]; rfl
  have hperm : (W.map fun t => pts.getD t (0, 0)).Perm ((metro.filter fun q => q.loc = p.loc).map (pix tx)) := by
    rw [List.perm_ext_iff_of_nodup]
    · intro x
      rw [List.mem_map, List.mem_map]
      constructor
      · rintro ⟨t, ht, rfl⟩
        obtain ⟨q, h1, h2, h3⟩ := (hWm t).1 ht
        exact ⟨q, List.mem_filter.2 ⟨h1, by simpa using h2⟩, (hget t q h3).symm⟩
      · rintro ⟨q, hq, rfl⟩
        obtain ⟨h1, h2⟩ := List.mem_filter.1 hq
        obtain ⟨t, ht, e⟩ := List.getElem_of_mem (he.seen q h1)
        have ht' : pts[t]? = some (pix tx q) := by rw [List.getElem?_eq_getElem ht, e]
        exact ⟨t, (hWm t).2 ⟨q, h1, by simpa using h2, ht'⟩, hget t q ht'⟩
    · rw [List.Nodup, List.pairwise_map]
      refine hWn.imp_of_mem ?_
      intro a b ha hb hab e
      have hlt : ∀ t ∈ W, t < pts.length := fun t ht => by
        rw [hW, List.mem_filter, List.mem_range] at ht; exact ht.1
      rw [List.getD_eq_getElem _ _ (hlt a ha), List.getD_eq_getElem _ _ (hlt b hb)] at e
      exact hab ((List.Nodup.getElem_inj_iff he.ptsNodup).1 e)
    · exact (he.distinct.sublist (List.Sublist.map _ List.filter_sublist))
  have hW4 : W.length = 4 := by
    have := hperm.length_eq
    rw [List.length_map, List.length_map, he.four p hp] at this
    exact this
  have hKW : ∀ t ∈ K, t ∈ W := fun t ht => (hWm t).2 ((near_iff he s t p hp hs).1 (k3 t ht))
  have hWK : ∀ t ∈ W, t ∈ K := by
    intro t ht
    obtain ⟨h1, h2⟩ := (near_iff he s t p hp hs).2 ((hWm t).1 ht)
    rcases k4 t h1 h2 with h | ⟨h, -⟩
    · exact h
    · by_contra hn
      have : (t :: K).length ≤ W.length := by
        apply List.Subperm.length_le
        apply List.Nodup.subperm (List.nodup_cons.2 ⟨hn, k1⟩)
        intro a ha
        rcases List.mem_cons.1 ha with rfl | ha
        · exact ht
        · exact hKW a ha
      rw [List.length_cons] at this
      omega
  refine ⟨k1, ?_, fun t => ⟨fun h => (hWm t).1 (hKW t h), fun h => hWK t ((hWm t).2 h)⟩⟩
  have : K.Perm W := by
    rw [List.perm_ext_iff_of_nodup k1 hWn]
    exact fun a => ⟨hKW a, hWK a⟩
  rw [this.length_eq, hW4]

theorem cand_iff (env : Env) (hk : KnnOk env.knn) (he : Exact metro tx r pts) (s : ℕ) :
    s ∈ candidates env pts r ↔ ∃ p ∈ metro, pts[s]? = some (pix tx p) := by
  unfold candidates
  rw [List.mem_filter, List.mem_range]
  simp only [decide_eq_true_eq]
  constructor
  · rintro ⟨hs, h4⟩
    by_cases hm : pts[s] ∈ metro.map (pix tx)
    · obtain ⟨p, hp, e⟩ := List.mem_map.1 hm
      exact ⟨p, hp, by rw [List.getElem?_eq_getElem hs, e]⟩
    · exfalso
      obtain ⟨k1, k2, k3, -⟩ := hk pts r s hs
      have := (he.other _ (List.getElem_mem hs) hm).2 ((env.knn pts r s).map fun t => pts.getD t (0, 0)) (by
        rw [List.Nodup, List.pairwise_map]
        refine k1.imp_of_mem ?_
        intro a b ha hb hab e
        rw [List.getD_eq_getElem _ _ (k3 a ha).1, List.getD_eq_getElem _ _ (k3 b hb).1] at e
        exact hab ((List.Nodup.getElem_inj_iff he.ptsNodup).1 e)) (by
        intro y hy
        obtain ⟨t, ht, rfl⟩ := List.mem_map.1 hy
        obtain ⟨h1, h2⟩ := k3 t ht
        refine ⟨by rw [List.getD_eq_getElem _ _ h1]; exact List.getElem_mem _, ?_⟩
        rw [List.getD_eq_getElem _ _ hs] at h2
        exact h2)
      rw [List.length_map] at this
      omega
  · rintro ⟨p, hp, hs⟩
    exact ⟨(List.getElem?_eq_some_iff.1 hs).1, by rw [(knn_pin env hk he s p hp hs).2.1]⟩

theorem step_exact (env : Env) (hg : Good env) (he : Exact metro tx r pts) (lab : ℕ → Label) (s k : ℕ) (p : Pin)
    (hp : p ∈ metro) (hs : pts[s]? = some (pix tx p)) (hloc : locAt (build metro tx) k = p.loc) :
    ∃ lab', step env (build metro tx) pts r lab (s, k) = .ok lab' ∧
      (∀ t q, q ∈ metro → pts[t]? = some (pix tx q) → q.loc = p.loc → lab' t = { lab t with loc := p.loc, pin := q.id }) ∧
      ∀ t, (∀ q ∈ metro, q.loc = p.loc → pts[t]? ≠ some (pix tx q)) → lab' t = lab t := by
  obtain ⟨k1, k2, k3⟩ := knn_pin env hg.knn he s p hp hs
  have hloc' : ((build metro tx).pins.map (·.loc)).getD ((build metro tx).fids.getD k 0) 0 = p.loc := hloc
  unfold step
  rw [hloc']
  dsimp only
  generalize env.knn pts r s = K at *
  unfold labelGroup
  set R := rowsOf (build metro tx).pins p.loc with hR
  set xy1 : Fin K.length → ℝ × ℝ := fun i => pts.getD K[i] (0, 0) with hxy1
  set xy2 : Fin R.length → ℝ × ℝ := fun j => pixAt (build metro tx).pins R[j] with hxy2
  have c1 : ∀ i : Fin K.length, ∃ q ∈ metro, q.loc = p.loc ∧ pts[K[i]]? = some (pix tx q) ∧ xy1 i = pix tx q := by
    intro i
    obtain ⟨q, h1, h2, h3⟩ := (k3 K[i]).1 (List.getElem_mem _)
    refine ⟨q, h1, h2, h3, ?_⟩
    rw [hxy1]; dsimp only; rw [List.getD_eq_getElem?_getD, h3]; rfl
  have c2 : ∀ j : Fin R.length, ∃ q ∈ metro, q.loc = p.loc ∧ metro[R[j]]? = some q ∧ xy2 j = pix tx q := by
    intro j
    obtain ⟨q, h1, h2⟩ := (rows_iff p.loc R[j]).1 (List.getElem_mem _)
    exact ⟨q, List.mem_of_getElem? h1, h2, h1, pixAt_eq _ _ h1⟩
  have inj1 : Function.Injective xy1 := by
    intro i i' h
    obtain ⟨q, h1, -, h3, h4⟩ := c1 i
    obtain ⟨q', h1', -, h3', h4'⟩ := c1 i'
    rw [h4, h4'] at h
    have : q = q' := pix_inj he h1 h1' h
    subst this
    have e : K[i] = K[i'] := by
      obtain ⟨a1, a2⟩ := List.getElem?_eq_some_iff.1 h3
      obtain ⟨b1, b2⟩ := List.getElem?_eq_some_iff.1 h3'
      exact (List.Nodup.getElem_inj_iff he.ptsNodup).1 (a2.trans b2.symm)
    exact Fin.ext ((List.Nodup.getElem_inj_iff k1).1 e)
  have inj2 : Function.Injective xy2 := by
    intro j j' h
    obtain ⟨q, h1, -, h3, h4⟩ := c2 j
    obtain ⟨q', h1', -, h3', h4'⟩ := c2 j'
    rw [h4, h4'] at h
    have e : R[j] = R[j'] := by
      obtain ⟨a1, a2⟩ := List.getElem?_eq_some_iff.1 h3
      obtain ⟨b1, b2⟩ := List.getElem?_eq_some_iff.1 h3'
      have : (metro.map (pix tx))[R[j]]'(by simpa using a1) = (metro.map (pix tx))[R[j']]'(by simpa using b1) := by
        rw [List.getElem_map, List.getElem_map, a2, b2, h]
      exact (List.Nodup.getElem_inj_iff he.distinct).1 this
    exact Fin.ext ((List.Nodup.getElem_inj_iff (nodup_rowsOf _ _)).1 e)
  have ex12 : ∀ i, ∃ j, xy2 j = xy1 i := by
    intro i
    obtain ⟨q, h1, h2, h3, h4⟩ := c1 i
    obtain ⟨n, hn, e⟩ := List.getElem_of_mem h1
    have hn' : metro[n]? = some q := by rw [List.getElem?_eq_getElem hn, e]
    obtain ⟨j, hj, e2⟩ := List.getElem_of_mem ((rows_iff (tx := tx) p.loc n).2 ⟨q, hn', h2⟩)
    refine ⟨⟨j, hj⟩, ?_⟩
    have : xy2 ⟨j, hj⟩ = pixAt (build metro tx).pins R[j] := rfl
    rw [this, h4]
    simp only [hR, e2]
    exact pixAt_eq _ _ hn'
  have ex21 : ∀ j, ∃ i, xy1 i = xy2 j := by
    intro j
    obtain ⟨q, h1, h2, -, h4⟩ := c2 j
    obtain ⟨t, ht, e⟩ := List.getElem_of_mem (he.seen q h1)
    have ht' : pts[t]? = some (pix tx q) := by rw [List.getElem?_eq_getElem ht, e]
    obtain ⟨i, hi, e2⟩ := List.getElem_of_mem ((k3 t).2 ⟨q, h1, h2, ht'⟩)
    refine ⟨⟨i, hi⟩, ?_⟩
    have : xy1 ⟨i, hi⟩ = pts.getD K[i] (0, 0) := rfl
    rw [this, e2, h4, List.getD_eq_getElem?_getD, ht']; rfl
  choose f hf using ex12
  have hbij : Function.Bijective f := by
    constructor
    · intro i i' h
      apply inj1
      rw [← hf i, ← hf i', h]
    · intro j
      obtain ⟨i, hi⟩ := ex21 j
      exact ⟨i, inj2 ((hf i).trans hi)⟩
  have hmatch : matchArbitrary (env.ordx xy1) (env.ordx xy2) env.nearTri env.rank xy1 xy2 =
      .ok (fun i => some (f i), fun _ => 0) := by
    refine C31_exact (Equiv.ofBijective f hbij) (by rw [k2]; norm_num) xy1 xy2 1 0 0 one_pos ?_ ?_ ?_ (hg.ordx _)
      (hg.ordx _) hg.near hg.rank
    · intro i
      rw [Equiv.ofBijective_apply, hf i]; simp
    · intro i i' h
      obtain ⟨q, h1, h2, -, h4⟩ := c1 i
      obtain ⟨q', h1', h2', -, h4'⟩ := c1 i'
      apply inj1
      rw [h4, h4'] at h ⊢
      rw [he.xs q' h1' q h1 (h2.trans h2'.symm) h]
    · intro t u o1 o2 o3 o4 hsh
      obtain ⟨qa, a1, a2, -, a4⟩ := c2 t.1
      obtain ⟨qb, b1, b2, -, b4⟩ := c2 t.2.1
      obtain ⟨qc, d1, d2, -, d4⟩ := c2 t.2.2
      obtain ⟨qa', a1', a2', -, a4'⟩ := c2 u.1
      obtain ⟨qb', b1', b2', -, b4'⟩ := c2 u.2.1
      obtain ⟨qc', d1', d2', -, d4'⟩ := c2 u.2.2
      unfold shape at hsh
      rw [a4, b4] at o1
      rw [b4, d4] at o2
      rw [a4', b4'] at o3
      rw [b4', d4'] at o4
      rw [a4, b4, d4, a4', b4', d4'] at hsh
      obtain ⟨e1, e2, e3⟩ := he.shapes qa a1 qb b1 qc d1 qa' a1' qb' b1' qc' d1' (b2.trans a2.symm) (d2.trans a2.symm)
        (a2'.trans a2.symm) (b2'.trans a2.symm) (d2'.trans a2.symm) o1 o2 o3 o4 hsh
      refine Prod.ext (inj2 ?_) (Prod.ext (inj2 ?_) (inj2 ?_))
      · rw [a4, a4', e1]
      · rw [b4, b4', e2]
      · rw [d4, d4', e3]
  dsimp only
  rw [hmatch]
  set ids : List (Option ℤ) := List.ofFn fun i => some (((build metro tx).pins.map (·.id)).getD R[f i] 0) with hids
  have hval : ∀ (i : Fin K.length) (q : Pin), q ∈ metro → xy1 i = pix tx q →
      ((build metro tx).pins.map (·.id)).getD R[f i] 0 = q.id := by
    intro i q hq hx
    obtain ⟨q', h1, -, h3, h4⟩ := c2 (f i)
    rw [hf i, hx] at h4
    have := pix_inj he hq h1 h4
    subst this
    rw [List.getD_eq_getElem?_getD, List.getElem?_map, pins_get _ _ h3]; rfl
  have hdup : duplicates (ids.map (·.getD 0)) = [] := by
    unfold duplicates
    rw [List.filter_eq_nil_iff]
    intro d _
    simp only [decide_eq_true_eq, not_and]
    intro _
    rw [not_lt]
    refine List.nodup_iff_count_le_one.1 ?_ d
    rw [hids, List.map_ofFn, List.nodup_ofFn]
    intro i i' h
    simp only [Function.comp, Option.getD_some] at h
    obtain ⟨q, h1, h2, -, h4⟩ := c1 i
    obtain ⟨q', h1', h2', -, h4'⟩ := c1 i'
    rw [hval i q h1 h4, hval i' q' h1' h4'] at h
    apply inj1
    rw [h4, h4', he.ids q' h1' q h1 (h2.trans h2'.symm) h]
  have hgoal : (Except.ok (fun i => some (f i), fun _ => (0 : ℝ)) >>= fun m : (Fin K.length → Option (Fin R.length)) × (Fin K.length → ℝ) =>
      (pure (fun s => if (assign K p.loc (List.ofFn fun i => (m.1 i).map fun j => ((build metro tx).pins.map (·.id)).getD R[j] 0) lab s).loc = p.loc ∧
        (assign K p.loc (List.ofFn fun i => (m.1 i).map fun j => ((build metro tx).pins.map (·.id)).getD R[j] 0) lab s).pin ∈
          duplicates ((List.ofFn fun i => (m.1 i).map fun j => ((build metro tx).pins.map (·.id)).getD R[j] 0).map (·.getD 0))
        then { assign K p.loc (List.ofFn fun i => (m.1 i).map fun j => ((build metro tx).pins.map (·.id)).getD R[j] 0) lab s with pin := 0 }
        else assign K p.loc (List.ofFn fun i => (m.1 i).map fun j => ((build metro tx).pins.map (·.id)).getD R[j] 0) lab s) :
        Except PyErr (ℕ → Label))) = .ok (assign K p.loc ids lab) := by
    show Except.ok (fun s => if (assign K p.loc ids lab s).loc = p.loc ∧ (assign K p.loc ids lab s).pin ∈ duplicates (ids.map (·.getD 0))
        then { assign K p.loc ids lab s with pin := 0 } else assign K p.loc ids lab s) = _
    rw [hdup]
    congr 1
    funext s
    rw [if_neg (by simp)]
  refine ⟨assign K p.loc ids lab, hgoal, ?_, ?_⟩
  · intro t q hq ht hl
    obtain ⟨i, hi, e⟩ := List.getElem_of_mem ((k3 t).2 ⟨q, hq, hl, ht⟩)
    refine (assign_spec p.loc K ids lab k1).1 i t q.id (by rw [List.getElem?_eq_getElem hi, e]) ?_
    rw [hids, List.getElem?_ofFn, dif_pos hi, hval ⟨i, hi⟩ q hq]
    have : xy1 ⟨i, hi⟩ = pts.getD K[i] (0, 0) := rfl
    rw [this, e, List.getD_eq_getElem?_getD, ht]; rfl
  · intro t ht
    refine (assign_spec p.loc K ids lab k1).2 t ?_
    intro i v hi
    obtain ⟨q, h1, h2, h3⟩ := (k3 t).1 (List.mem_of_getElem? hi)
    exact absurd h3 (ht q h1 h2)

theorem fold_exact (env : Env) (hg : Good env) (he : Exact metro tx r pts) (es : List (ℕ × ℕ)) :
    ∀ lab : ℕ → Label, (∀ e ∈ es, ∃ p ∈ metro, pts[e.1]? = some (pix tx p) ∧ locAt (build metro tx) e.2 = p.loc) →
    ∃ lab', es.foldlM (step env (build metro tx) pts r) lab = .ok lab' ∧ ∀ t,
      (∀ q ∈ metro, pts[t]? = some (pix tx q) →
        (q.loc ∈ es.map (fun e => locAt (build metro tx) e.2) → lab' t = { lab t with loc := q.loc, pin := q.id }) ∧
        (q.loc ∉ es.map (fun e => locAt (build metro tx) e.2) → lab' t = lab t)) ∧
      ((∀ q ∈ metro, pts[t]? ≠ some (pix tx q)) → lab' t = lab t) := by
  induction es with
  | nil =>
    intro lab _
    exact ⟨lab, rfl, fun t => ⟨fun q _ _ => ⟨fun h => by simp at h, fun _ => rfl⟩, fun _ => rfl⟩⟩
  | cons e es ih =>
    intro lab h
    obtain ⟨p, hp, hs, hloc⟩ := h e (by simp)
    obtain ⟨lab1, s1, s2, s3⟩ := step_exact env hg he lab e.1 e.2 p hp hs hloc
    obtain ⟨lab', f1, f2⟩ := ih lab1 fun e' he' => h e' (List.mem_cons_of_mem _ he')
    refine ⟨lab', ?_, ?_⟩
    · rw [List.foldlM_cons, s1]
      exact f1
    · intro t
      obtain ⟨g1, g2⟩ := f2 t
      constructor
      · intro q hq ht
        obtain ⟨g3, g4⟩ := g1 q hq ht
        rw [List.map_cons, List.mem_cons, hloc]
        by_cases hql : q.loc = p.loc
        · have e1 := s2 t q hq ht hql
          constructor
          · intro _
            by_cases hm : q.loc ∈ es.map fun e => locAt (build metro tx) e.2
            · rw [g3 hm, e1]
            · rw [g4 hm, e1, hql]
          · intro hn; exact absurd (Or.inl hql) hn
        · have e1 : lab1 t = lab t := by
            apply s3
            intro q' hq' hl' ht'
            rw [ht] at ht'
            injection ht' with ht'
            rw [pix_inj he hq hq' ht'] at hql
            exact hql hl'
          rw [e1] at g3 g4
          exact ⟨fun hm => g3 (hm.resolve_left hql), fun hn => g4 fun hm => hn (Or.inr hm)⟩
      · intro hn
        rw [g2 hn]
        exact s3 t fun q hq _ => hn q hq

theorem findWith_exact (env : Env) (hg : Good env) (he : Exact metro tx r pts) :
    ∃ out, findWith env (build metro tx) r pts = .ok out ∧ out.length = pts.length ∧
      (∀ (t : ℕ) (p : Pin), p ∈ metro → pts[t]? = some (pix tx p) → out[t]? = some ⟨p.loc, p.loc / 1000, p.loc % 1000, p.id⟩) ∧
      ∀ (t : ℕ) (x : ℝ × ℝ), pts[t]? = some x → x ∉ metro.map (pix tx) → out[t]? = some ⟨-1, -1, -1, 0⟩ := by
  set c := build metro tx with hcdef
  set cand := candidates env pts r with hcand
  set x1 := cand.map fun i => pts.getD i (0, 0) with hx1
  set x2 := c.fids.map (pixAt c.pins) with hx2
  obtain ⟨bl1, bl2⟩ := build_locs metro tx
  have hfid : ∀ (k : ℕ) (i : ℕ), c.fids[k]? = some i → ∃ p ∈ metro, metro[i]? = some p ∧ locAt c k = p.loc := by
    intro k i hk
    have hi := bl2 i (List.mem_of_getElem? hk)
    refine ⟨metro[i], List.getElem_mem _, List.getElem?_eq_getElem hi, ?_⟩
    unfold locAt
    have : c.fids.getD k 0 = i := by rw [List.getD_eq_getElem?_getD, hk]; rfl
    rw [this, List.getD_eq_getElem?_getD, List.getElem?_map, pins_get i _ (List.getElem?_eq_getElem hi)]
    rfl
  have hfx : ∀ (k : ℕ) (x : ℝ × ℝ), x2[k]? = some x → ∃ p ∈ metro, x = pix tx p ∧ locAt c k = p.loc ∧ k < c.fids.length := by
    intro k x hk
    rw [hx2, List.getElem?_map, Option.map_eq_some_iff] at hk
    obtain ⟨i, hi, rfl⟩ := hk
    obtain ⟨p, h1, h2, h3⟩ := hfid k i hi
    exact ⟨p, h1, pixAt_eq i p h2, h3, (List.getElem?_eq_some_iff.1 hi).1⟩
  have hcov : ∀ p ∈ metro, ∃ k, k < c.fids.length ∧ locAt c k = p.loc := by
    intro p hp
    have : p.loc ∈ c.fids.map fun i => (c.pins.map (·.loc)).getD i 0 := by
      rw [bl1, List.mem_dedup, Lemmas.mem_pySort]
      exact List.mem_map_of_mem hp
    obtain ⟨k, hk, e⟩ := List.getElem_of_mem this
    have hk' : k < c.fids.length := by simpa using hk
    refine ⟨k, hk', ?_⟩
    rw [List.getElem_map] at e
    unfold locAt
    rw [List.getD_eq_getElem (d := 0) _ hk']
    exact e
  have n1 : x1.Nodup := by
    rw [hx1, List.Nodup, List.pairwise_map]
    have hcn : cand.Nodup := List.nodup_range.filter _
    refine hcn.imp_of_mem ?_
    intro a b ha hb hab e
    have hlt : ∀ t ∈ cand, t < pts.length := fun t ht => by
      rw [hcand, candidates, List.mem_filter, List.mem_range] at ht; exact ht.1
    rw [List.getD_eq_getElem _ _ (hlt a ha), List.getD_eq_getElem _ _ (hlt b hb)] at e
    exact hab ((List.Nodup.getElem_inj_iff he.ptsNodup).1 e)
  have n2 : x2.Nodup := by
    have hnd : (c.fids.map fun i => (c.pins.map (·.loc)).getD i 0).Nodup := by
      rw [bl1]; exact List.nodup_dedup _
    rw [List.nodup_iff_injective_getElem]
    rintro ⟨k, hk⟩ ⟨k', hk'⟩ e
    simp only at e
    obtain ⟨p, h1, h2, h3, h4⟩ := hfx k _ (List.getElem?_eq_getElem hk)
    obtain ⟨p', h1', h2', h3', h4'⟩ := hfx k' _ (List.getElem?_eq_getElem hk')
    rw [h2, h2'] at e
    have := pix_inj he h1 h1' e
    rw [this, ← h3'] at h3
    unfold locAt at h3
    rw [List.getD_eq_getElem (d := 0) _ h4, List.getD_eq_getElem (d := 0) _ h4'] at h3
    have h5 : (c.fids.map fun i => (c.pins.map (·.loc)).getD i 0)[k]'(by simpa using h4) =
        (c.fids.map fun i => (c.pins.map (·.loc)).getD i 0)[k']'(by simpa using h4') := by
      rw [List.getElem_map, List.getElem_map]; exact h3
    exact Fin.ext ((List.Nodup.getElem_inj_iff hnd).1 h5)
  have hsub : ∀ x ∈ x2, x ∈ x1 := by
    intro x hx
    obtain ⟨k, hk, e⟩ := List.getElem_of_mem hx
    obtain ⟨p, h1, h2, -⟩ := hfx k x (by rw [List.getElem?_eq_getElem hk, e])
    obtain ⟨t, ht, e2⟩ := List.getElem_of_mem (he.seen p h1)
    rw [hx1, List.mem_map]
    refine ⟨t, (cand_iff env hg.knn he t).2 ⟨p, h1, by rw [List.getElem?_eq_getElem ht, e2]⟩, ?_⟩
    rw [List.getD_eq_getElem _ _ ht, e2, h2]
  have hline : ¬ OnLine x2 := by
    apply he.noLine
    intro p hp
    obtain ⟨k, hk, hl⟩ := hcov p hp
    have hk2 : k < x2.length := by rw [hx2, List.length_map]; exact hk
    obtain ⟨q, h1, h2, h3, -⟩ := hfx k _ (List.getElem?_eq_getElem hk2)
    exact ⟨q, h1, by rw [← h3, hl], h2 ▸ List.getElem_mem _⟩
  have hit : iterate env x1 20 x2 0 = .ok x2 := iterate_exact env hg.same x1 x2 n1 n2 hsub hline 19
  have hne1 : x1 ≠ [] := by
    intro e
    have : x2 = [] := by
      rw [List.eq_nil_iff_forall_not_mem]
      intro x hx
      have := hsub x hx
      rw [e] at this
      cases this
    rw [this] at hline
    exact hline ⟨1, 0, 0, by simp, by simp⟩
  have hmem := (match_sub env.same hg.same x2 x1 n2 n1 hne1 (Or.inl hsub)).1 10 (by norm_num)
  have hes : ∀ e ∈ finalPairs env cand x1 x2, ∃ p ∈ metro, pts[e.1]? = some (pix tx p) ∧ locAt c e.2 = p.loc := by
    intro e hee
    unfold finalPairs at hee
    obtain ⟨⟨k, j⟩, hkj, rfl⟩ := List.mem_map.1 hee
    obtain ⟨x, e1, e2⟩ := (hmem k j).1 hkj
    obtain ⟨p, h1, h2, h3, -⟩ := hfx k x e1
    refine ⟨p, h1, ?_, h3⟩
    rw [hx1, List.getElem?_map, Option.map_eq_some_iff] at e2
    obtain ⟨s, hs1, hs2⟩ := e2
    dsimp only
    rw [List.getD_eq_getElem?_getD, hs1]
    have hs3 : s < pts.length := by
      have := List.mem_of_getElem? hs1
      rw [hcand, candidates, List.mem_filter, List.mem_range] at this
      exact this.1
    rw [List.getD_eq_getElem _ _ hs3] at hs2
    show pts[s]? = _
    rw [List.getElem?_eq_getElem hs3, hs2, h2]
  have hall : ∀ p ∈ metro, p.loc ∈ (finalPairs env cand x1 x2).map fun e => locAt c e.2 := by
    intro p hp
    obtain ⟨k, hk, hl⟩ := hcov p hp
    have hk2 : k < x2.length := by rw [hx2, List.length_map]; exact hk
    obtain ⟨j, hj, e⟩ := List.getElem_of_mem (hsub _ (List.getElem_mem hk2))
    have : (k, j) ∈ okPairs 10 (matchLists env.same x2 x1) :=
      (hmem k j).2 ⟨x2[k], List.getElem?_eq_getElem hk2, by rw [List.getElem?_eq_getElem hj, e]⟩
    rw [List.mem_map]
    exact ⟨(cand.getD j 0, k), List.mem_map.2 ⟨(k, j), this, rfl⟩, hl⟩
  obtain ⟨lab, l1, l2⟩ := fold_exact env hg he (finalPairs env cand x1 x2) (fun _ => ⟨-1, -1, -1, 0⟩) hes
  refine ⟨(List.range pts.length).map fun s => finish (lab s), ?_, by simp, ?_, ?_⟩
  · unfold findWith
    show (iterate env x1 20 x2 0 >>= fun _ => _) = _
    rw [hit]
    show ((finalPairs env cand x1 x2).foldlM (step env c pts r) (fun _ => ⟨-1, -1, -1, 0⟩) >>= fun _ => _) = _
    rw [l1]
    rfl
  · intro t p hp ht
    have hlt := (List.getElem?_eq_some_iff.1 ht).1
    rw [List.getElem?_map, List.getElem?_range hlt]
    have := ((l2 t).1 p hp ht).1 (hall p hp)
    simp only [Option.map_some, this]
    unfold finish
    rw [if_pos (he.loc0 p hp)]
  · intro t x ht hx
    have hlt := (List.getElem?_eq_some_iff.1 ht).1
    rw [List.getElem?_map, List.getElem?_range hlt]
    have := (l2 t).2 (fun q hq e => by
      rw [ht] at e
      injection e with e
      exact hx (e ▸ List.mem_map_of_mem hq))
    simp only [Option.map_some, this]
    rfl

end
end Fid
open Fid

/-- C35: exact recovery.  When every metrology pinhole is seen exactly where the transform puts
it, fiducials have four pinholes each, are separated by more than the separation limit and not on a line, and
the other spots stay away and do not form groups of four, then every pinhole spot gets the
LOCATION and PINHOLE_ID of its own metrology row and all other spots get no label, in a new
process or after any calls with the same transform. -/
theorem C35_exact (env : Env) (hg : Fid.Good env) (metro : List Pin) (tx : Tx) (sep : ℝ) (pts : List (ℝ × ℝ))
    (he : Exact metro tx (radius tx sep) pts) (calls : List Call) (hc : ∀ b ∈ calls, b.tx = .ok tx) :
    ∃ out, (findfiducials env metro (after env metro calls) ⟨pts, .ok tx, sep⟩).1 = .ok out ∧ out.length = pts.length ∧
      (∀ (t : ℕ) (p : Pin), p ∈ metro → pts[t]? = some (tx.toPix p.fp) →
        out[t]? = some ⟨p.loc, p.loc / 1000, p.loc % 1000, p.id⟩) ∧
      ∀ (t : ℕ) (x : ℝ × ℝ), pts[t]? = some x → (∀ p ∈ metro, tx.toPix p.fp ≠ x) → out[t]? = some ⟨-1, -1, -1, 0⟩ := by
  obtain ⟨out, h1, h2, h3, h4⟩ := findWith_exact env hg he
  refine ⟨out, ?_, h2, h3, ?_⟩
  · rw [(C35_history env metro calls _).1 tx rfl hc]
    exact h1
  · intro t x ht hx
    refine h4 t x ht ?_
    rw [List.mem_map]
    rintro ⟨p, hp, e⟩
    exact hx p hp e

end Verif.Props
