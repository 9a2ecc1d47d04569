import Verif.Model.LegacyRequests
import Verif.Props.PerfMoves
import Verif.Props.Int2ptl
import Verif.Props.Ptl2fp
import Verif.Props.RayRun

/-!
# C117: what was requested, in `analyze_pos_performance_legacy`
-/

namespace Verif.Props.LegacyReq
open Verif.Py Verif.Model Verif.Model.LegacyReq
open Verif.Model.PerfMoves (Num item absCoords parseVal)
open Verif.Props.Pfm (bind_ok_iff item_iff split_first split_none stripC_eq LastVal Val IsSeq IsSub parseVal_iff foldlM_last)
open Verif.Props.Int2ptl (tip)

/-- Where a command asks the fibre to be, in flat coordinates. -/
def Asked (d : Ptl2fp.Dict) (r2z : ℝ → ℝ) (r : Row) (q : Cmd) (p : ℝ × ℝ) : Prop :=
  (q.coord = "ptlXY".toList ∧ p = Xy2qs.ptl2flat q.a q.b) ∨
  (q.coord = "QS".toList ∧ ∃ u, Ptl2fp.ptl2fp d r.petal u = .ok (Ptl2fp.withZ r2z (Xy2qs.qs2xy q.a q.b).1 (Xy2qs.qs2xy q.a q.b).2) ∧
    p = Xy2qs.ptl2flat (u 0) (u 1)) ∨
  (q.coord = "obsXY".toList ∧ ∃ u, Ptl2fp.ptl2fp d r.petal u = .ok (Ptl2fp.withZ r2z q.a q.b) ∧ p = Xy2qs.ptl2flat (u 0) (u 1)) ∨
  (q.coord = "poslocXY".toList ∧ p = (r.cal.x + q.a, r.cal.y + q.b)) ∨
  ((q.coord = "posintTP".toList ∨ q.coord = "poslocTP".toList) ∧ p = tip r.cal q.a q.b)

theorem fromFp_iff (d : Ptl2fp.Dict) (r2z : ℝ → ℝ) (petal : ℕ) (xy p : ℝ × ℝ) : fromFp d r2z petal xy = .ok p ↔
    ∃ u, Ptl2fp.ptl2fp d petal u = .ok (Ptl2fp.withZ r2z xy.1 xy.2) ∧ p = Xy2qs.ptl2flat (u 0) (u 1) := by
  unfold fromFp
  rw [bind_ok_iff]
  constructor
  · rintro ⟨u, h1, h2⟩
    refine ⟨u, ?_, (Except.ok.inj h2).symm⟩
    have := (C10_inverse d petal (Ptl2fp.withZ r2z xy.1 xy.2)).2
    rw [h1] at this
    have hs : (d petal).isSome := by
      cases hd : d petal with
      | none => rw [hd] at this; rw [Ptl2fp.fp2ptl, Ptl2fp.lookup, hd] at h1; cases h1
      | some a => rfl
    rw [if_pos hs] at this
    exact this
  · rintro ⟨u, h1, h2⟩
    refine ⟨u, ?_, by rw [h2]; rfl⟩
    have := (C10_inverse d petal u).1
    rw [h1] at this
    have hs : (d petal).isSome := by
      cases hd : d petal with
      | none => rw [Ptl2fp.ptl2fp, Ptl2fp.lookup, hd] at h1; cases h1
      | some a => rfl
    rw [if_pos hs] at this
    exact this

theorem fromLoc_eq (c : Int2ptl.Cal) (x y : ℝ) : fromLoc c ([x], [y]) = .ok (x + c.x, y + c.y) := by
  simp [fromLoc, toFlat, Pos2ptl.loc2flat, Pos2ptl.addOffset, bcast2, bind, Except.bind, pure, Except.pure]

theorem int2loc_eq (c : Int2ptl.Cal) (t p : ℝ) : Pos2ptl.int2loc [t] [p] [c.r1] [c.r2] [c.tOff] [c.pOff] =
    .ok ([(Xy2tp.tp2xy (t + c.tOff, p + c.pOff) c.r1 c.r2).1], [(Xy2tp.tp2xy (t + c.tOff, p + c.pOff) c.r1 c.r2).2]) := by
  simp [Pos2ptl.int2loc, Pos2ptl.int2ext, Pos2ptl.ext2loc, Pos2ptl.addOffset, bcast2, bind, Except.bind, pure, Except.pure, Xy2tp.tp2xy]

theorem place_iff (d : Ptl2fp.Dict) (r2z : ℝ → ℝ) (r : Row) (q : Cmd) (p : ℝ × ℝ) : place d r2z r q = .ok p ↔ Asked d r2z r q p := by
  have hint : (Pos2ptl.int2loc [q.a] [q.b] [r.cal.r1] [r.cal.r2] [r.cal.tOff] [r.cal.pOff] >>= fromLoc r.cal) = .ok (tip r.cal q.a q.b) := by
    rw [int2loc_eq, Int2ptl.tip_tp2xy]
    exact fromLoc_eq _ _ _
  have hloc : (do
      let t ← Pos2ptl.int2ext [q.a] [r.cal.tOff]
      let p ← Pos2ptl.int2ext [q.b] [r.cal.pOff]
      let l ← Pos2ptl.ext2loc t p [r.cal.r1] [r.cal.r2]
      fromLoc r.cal l) = .ok (tip r.cal q.a q.b) := by
    rw [← hint]
    rw [Pos2ptl.int2loc]
    simp only [bind, Except.bind, Pos2ptl.int2ext, Pos2ptl.addOffset, bcast2]
    rfl
  have hd : (["ptlXY".toList, "QS".toList, "obsXY".toList, "poslocXY".toList, "posintTP".toList, "poslocTP".toList] : List PyStr).Nodup := by decide
  unfold place Asked
  generalize "ptlXY".toList = n1 at *
  generalize "QS".toList = n2 at *
  generalize "obsXY".toList = n3 at *
  generalize "poslocXY".toList = n4 at *
  generalize "posintTP".toList = n5 at *
  generalize "poslocTP".toList = n6 at *
  simp only [List.nodup_cons, List.mem_cons, List.not_mem_nil, not_or, or_false, List.nodup_nil, and_true, not_false_eq_true] at hd
  obtain ⟨⟨a1, a2, a3, a4, a5⟩, ⟨b1, b2, b3, b4⟩, ⟨c1, c2, c3⟩, ⟨d1, d2⟩, e1⟩ := hd
  by_cases h1 : q.coord = n1
  · rw [if_pos h1, h1]; simp only [a1, a2, a3, a4, a5, true_and, false_and, or_false, Except.ok.injEq]; exact eq_comm
  rw [if_neg h1]
  by_cases h2 : q.coord = n2
  · rw [if_pos h2, fromFp_iff]; rw [h2] at h1 ⊢; simp only [h1, b1, b2, b3, b4, true_and, false_and, or_false, false_or]
  rw [if_neg h2]
  by_cases h3 : q.coord = n3
  · rw [if_pos h3, fromFp_iff]; rw [h3] at h1 h2 ⊢; simp only [h1, h2, c1, c2, c3, true_and, false_and, or_false, false_or]
  rw [if_neg h3]
  by_cases h4 : q.coord = n4
  · rw [if_pos h4, fromLoc_eq]; rw [h4] at h1 h2 h3 ⊢
    simp only [h1, h2, h3, d1, d2, true_and, false_and, or_false, false_or, Except.ok.injEq, add_comm]; exact eq_comm
  rw [if_neg h4]
  by_cases h5 : q.coord = n5
  · rw [if_pos h5]
    refine (by rw [hint] : _ ↔ Except.ok (tip r.cal q.a q.b) = Except.ok p).trans ?_
    rw [h5] at h1 h2 h3 h4 ⊢
    simp only [h1, h2, h3, h4, e1, true_and, false_and, or_false, false_or, Except.ok.injEq]; exact eq_comm
  rw [if_neg h5]
  by_cases h6 : q.coord = n6
  · rw [if_pos h6]
    refine (by rw [hloc] : _ ↔ Except.ok (tip r.cal q.a q.b) = Except.ok p).trans ?_
    rw [h6] at h1 h2 h3 h4 h5 ⊢
    simp only [h1, h2, h3, h4, h5, true_and, false_and, or_true, false_or, Except.ok.injEq]; exact eq_comm
  rw [if_neg h6]
  simp only [h1, h2, h3, h4, h5, h6, false_and, or_false]
  exact ⟨fun h => (nomatch h), False.elim⟩

/-- The row `r` read with `q` as its command: a row which is no move counts as a move to the tracked angles. -/
def Effective (r : Row) (q : Option Cmd) (c : Cmd) : Prop := q = some c ∨ q = none ∧ c = ⟨"posintTP".toList, r.posT, r.posP⟩

/-- What `ps` says of the rows `rs` (read as `qs`), if `last` is the request known before. -/
def Follows (d : Ptl2fp.Dict) (r2z : ℝ → ℝ) : Option (ℝ × ℝ) → List (Row × Option Cmd) → List (Option (ℝ × ℝ)) → Prop
  | _, [], ps => ps = []
  | last, (r, q) :: rest, ps => ∃ p tail, ps = p :: tail ∧ Follows d r2z p rest tail ∧
      (r.sub = 0 → ∃ v, p = some v ∧ Asked d r2z r (effective r q) v) ∧ (r.sub ≠ 0 → p = last)

theorem asked_abs {d : Ptl2fp.Dict} {r2z : ℝ → ℝ} {r : Row} {q : Cmd} {p : ℝ × ℝ} (h : Asked d r2z r q p) : absCoords.contains q.coord = true := by
  rw [List.contains_iff_mem]
  unfold absCoords
  simp only [List.mem_cons, List.not_mem_nil, or_false]
  rcases h with ⟨h, -⟩ | ⟨h, -⟩ | ⟨h, -⟩ | ⟨h, -⟩ | ⟨h | h, -⟩ <;> rw [h] <;> decide

theorem loop_iff (d : Ptl2fp.Dict) (r2z : ℝ → ℝ) (l : List (Row × Option Cmd)) : ∀ (last : Option (ℝ × ℝ)) (ps : List (Option (ℝ × ℝ))),
    loop d r2z last l = .ok ps ↔ Follows d r2z last l ps := by
  induction l with
  | nil =>
    intro last ps
    simp only [loop, Follows, Except.ok.injEq]
    exact eq_comm
  | cons rq rest ih =>
    intro last ps
    obtain ⟨r, q⟩ := rq
    rw [loop, Follows]
    by_cases h : r.sub = 0 ∧ absCoords.contains (effective r q).coord = true
    · rw [if_pos h, bind_ok_iff]
      constructor
      · rintro ⟨p, hp, h2⟩
        obtain ⟨tail, ht, h3⟩ := (bind_ok_iff _ _ _).1 h2
        exact ⟨some p, tail, (Except.ok.inj h3).symm, (ih _ _).1 ht, fun _ => ⟨p, rfl, (place_iff _ _ _ _ _).1 hp⟩, fun h' => absurd h.1 h'⟩
      · rintro ⟨p, tail, rfl, h1, h2, -⟩
        obtain ⟨v, rfl, hv⟩ := h2 h.1
        exact ⟨v, (place_iff _ _ _ _ _).2 hv, (bind_ok_iff _ _ _).2 ⟨tail, (ih _ _).2 h1, rfl⟩⟩
    · rw [if_neg h]
      by_cases hs : r.sub = 0
      · rw [if_neg (not_not.2 hs)]
        constructor
        · intro h'; exact nomatch h'
        · rintro ⟨p, tail, -, -, h2, -⟩
          obtain ⟨v, -, hv⟩ := h2 hs
          exact absurd ⟨hs, asked_abs hv⟩ h
      · rw [if_pos hs, bind_ok_iff]
        constructor
        · rintro ⟨tail, ht, h3⟩
          exact ⟨last, tail, (Except.ok.inj h3).symm, (ih _ _).1 ht, fun h' => absurd h' hs, fun _ => rfl⟩
        · rintro ⟨p, tail, rfl, h1, -, h2⟩
          rw [h2 hs] at h1 ⊢
          exact ⟨tail, (ih _ _).2 h1, rfl⟩

theorem allKnown_iff (l : List (Option (ℝ × ℝ))) (ps : List (ℝ × ℝ)) : allKnown l = .ok ps ↔ l = ps.map some := by
  unfold allKnown
  rw [RayRun.mapM_iff]
  constructor
  · intro h
    induction h with
    | nil => rfl
    | @cons a b l ps h1 h2 ih =>
      rw [List.map_cons, ih]
      cases a with
      | none => exact nomatch h1
      | some a => rw [Except.ok.inj h1]
  · rintro rfl
    induction ps with
    | nil => exact .nil
    | cons p ps ih => exact .cons rfl ih

/-- `Follows` entry by entry. -/
theorem follows_get (d : Ptl2fp.Dict) (r2z : ℝ → ℝ) (l : List (Row × Option Cmd)) : ∀ (last : Option (ℝ × ℝ)) (ps : List (Option (ℝ × ℝ))),
    Follows d r2z last l ps ↔ ps.length = l.length ∧ ∀ i r q p, l[i]? = some (r, q) → ps[i]? = some p →
      (r.sub = 0 → ∃ v, p = some v ∧ Asked d r2z r (effective r q) v) ∧ (r.sub ≠ 0 → (i = 0 ∧ p = last) ∨ ∃ j, i = j + 1 ∧ ps[j]? = some p) := by
  induction l with
  | nil =>
    intro last ps
    simp only [Follows, List.length_nil, List.length_eq_zero_iff, List.getElem?_nil]
    constructor
    · intro h; exact ⟨h, fun i r q p h => nomatch h⟩
    · exact fun h => h.1
  | cons rq rest ih =>
    intro last ps
    obtain ⟨r, q⟩ := rq
    rw [Follows]
    constructor
    · rintro ⟨p, tail, rfl, h1, h2, h3⟩
      obtain ⟨g1, g2⟩ := (ih _ _).1 h1
      refine ⟨by rw [List.length_cons, List.length_cons, g1], ?_⟩
      intro i r' q' p' hr hp
      cases i with
      | zero =>
        rw [List.getElem?_cons_zero, Option.some.injEq] at hr hp
        obtain ⟨rfl, rfl⟩ := Prod.mk.injEq _ _ _ _ ▸ hr
        subst hp
        exact ⟨h2, fun h => Or.inl ⟨rfl, h3 h⟩⟩
      | succ i =>
        rw [List.getElem?_cons_succ] at hr hp
        obtain ⟨k1, k2⟩ := g2 i r' q' p' hr hp
        refine ⟨k1, fun h => Or.inr ⟨i, rfl, ?_⟩⟩
        rcases k2 h with ⟨rfl, e⟩ | ⟨j, rfl, e⟩
        · rw [List.getElem?_cons_zero, e]
        · rw [List.getElem?_cons_succ, e]
    · rintro ⟨h1, h2⟩
      cases ps with
      | nil => simp at h1
      | cons p tail =>
        obtain ⟨k1, k2⟩ := h2 0 r q p rfl rfl
        refine ⟨p, tail, rfl, (ih _ _).2 ⟨by simpa using h1, ?_⟩, k1, ?_⟩
        · intro i r' q' p' hr hp
          obtain ⟨m1, m2⟩ := h2 (i + 1) r' q' p' (by rw [List.getElem?_cons_succ]; exact hr) (by rw [List.getElem?_cons_succ]; exact hp)
          refine ⟨m1, fun h => ?_⟩
          rcases m2 h with ⟨h', -⟩ | ⟨j, e, e2⟩
          · exact absurd h' (Nat.succ_ne_zero i)
          · obtain rfl : i = j := by omega
            cases i with
            | zero => rw [List.getElem?_cons_zero, Option.some.injEq] at e2; exact Or.inl ⟨rfl, e2.symm⟩
            | succ i => rw [List.getElem?_cons_succ] at e2; exact Or.inr ⟨i, rfl, e2⟩
        · intro h
          rcases k2 h with ⟨-, e⟩ | ⟨j, e, -⟩
          · exact e
          · exact absurd e.symm (Nat.succ_ne_zero j)

/-- **C117**: what identifying the requests gives. The script ends normally with the columns FLAT_X_REQUESTED, FLAT_Y_REQUESTED exactly when the
command of every row can be read, every row of submove 0 has an absolute command (or none, which counts as a move to the tracked angles) and
the first row has submove 0; then such a row gets the place its command asks for, and every other row what the row before it got. -/
theorem C117_rows (float : PyStr → Except PyErr ℝ) (d : Ptl2fp.Dict) (r2z : ℝ → ℝ) (rows : List Row) (ps : List (ℝ × ℝ)) :
    requests float d r2z rows = .ok ps ↔ ps.length = rows.length ∧ ∀ i r p, rows[i]? = some r → ps[i]? = some p →
      ∃ q c, command float r = .ok q ∧ Effective r q c ∧ (r.sub = 0 → Asked d r2z r c p) ∧ (r.sub ≠ 0 → ∃ j, i = j + 1 ∧ ps[j]? = some p) := by
  have heff : ∀ (r : Row) (q : Option Cmd) (c : Cmd), Effective r q c ↔ c = effective r q := by
    intro r q c
    unfold Effective effective
    cases q with
    | none => simp only [Option.getD_none, true_and, reduceCtorEq, false_or]
    | some q => simp only [Option.getD_some, Option.some.injEq, reduceCtorEq, false_and, or_false]; exact eq_comm
  unfold requests
  rw [bind_ok_iff]
  constructor
  · rintro ⟨cs, h1, h2⟩
    obtain ⟨l, h3, h4⟩ := (bind_ok_iff _ _ _).1 h2
    rw [allKnown_iff] at h4
    subst h4
    have hf := (RayRun.mapM_iff _ _ _).1 h1
    have hlen := hf.length_eq
    obtain ⟨g1, g2⟩ := (follows_get _ _ _ _ _).1 ((loop_iff _ _ _ _ _).1 h3)
    rw [List.length_map, List.length_zip, ← hlen, Nat.min_self] at g1
    refine ⟨g1, ?_⟩
    intro i r p hr hp
    have hi : i < cs.length := by rw [← hlen]; exact (List.getElem?_eq_some_iff.1 hr).1
    have hc : cs[i]? = some cs[i] := List.getElem?_eq_getElem hi
    have hq : command float r = .ok cs[i] := by
      have := (List.forall₂_iff_get.1 hf).2 i (List.getElem?_eq_some_iff.1 hr).1 hi
      rw [List.get_eq_getElem, List.get_eq_getElem] at this
      rw [← (List.getElem?_eq_some_iff.1 hr).2]
      exact this
    obtain ⟨k1, k2⟩ := g2 i r cs[i] (some p) (List.getElem?_zip_eq_some.2 ⟨hr, hc⟩) (by rw [List.getElem?_map, hp]; rfl)
    refine ⟨cs[i], effective r cs[i], hq, (heff _ _ _).2 rfl, ?_, ?_⟩
    · intro h
      obtain ⟨v, e, hv⟩ := k1 h
      rw [Option.some.injEq] at e
      rw [e]; exact hv
    · intro h
      rcases k2 h with ⟨-, e⟩ | ⟨j, e, e2⟩
      · exact nomatch e
      · refine ⟨j, e, ?_⟩
        rw [List.getElem?_map] at e2
        cases hj : ps[j]? with
        | none => rw [hj] at e2; exact nomatch e2
        | some v => rw [hj] at e2; simpa using e2
  · rintro ⟨h1, h2⟩
    have hall : ∀ r ∈ rows, ∃ q, command float r = .ok q := by
      intro r hr
      obtain ⟨i, hi⟩ := List.mem_iff_getElem?.1 hr
      have hi' : i < ps.length := by rw [h1]; exact (List.getElem?_eq_some_iff.1 hi).1
      obtain ⟨q, c, hq, -⟩ := h2 i r ps[i] hi (List.getElem?_eq_getElem hi')
      exact ⟨q, hq⟩
    obtain ⟨cs, hcs⟩ := FpMetrology.mapM_ok_of hall
    refine ⟨cs, hcs, (bind_ok_iff _ _ _).2 ⟨ps.map some, (loop_iff _ _ _ _ _).2 ((follows_get _ _ _ _ _).2 ?_), (allKnown_iff _ _).2 rfl⟩⟩
    have hf := (RayRun.mapM_iff _ _ _).1 hcs
    have hlen := hf.length_eq
    refine ⟨by rw [List.length_map, List.length_zip, ← hlen, Nat.min_self, h1], ?_⟩
    intro i r q p hrq hp
    obtain ⟨hr, hq⟩ := List.getElem?_zip_eq_some.1 hrq
    rw [List.getElem?_map] at hp
    cases hpi : ps[i]? with
    | none => rw [hpi] at hp; exact nomatch hp
    | some v =>
      rw [hpi] at hp
      obtain rfl : some v = p := by simpa using hp
      obtain ⟨q', c, hq', hc, k1, k2⟩ := h2 i r v hr hpi
      have hqq : q' = q := by
        have := (List.forall₂_iff_get.1 hf).2 i (List.getElem?_eq_some_iff.1 hr).1 (List.getElem?_eq_some_iff.1 hq).1
        rw [List.get_eq_getElem, List.get_eq_getElem, (List.getElem?_eq_some_iff.1 hr).2, (List.getElem?_eq_some_iff.1 hq).2, hq'] at this
        exact Except.ok.inj this
      subst hqq
      rw [heff] at hc
      subst hc
      refine ⟨fun h => ⟨v, rfl, k1 h⟩, fun h => ?_⟩
      obtain ⟨j, e, e2⟩ := k2 h
      exact Or.inr ⟨j, e, by rw [List.getElem?_map, e2]; rfl⟩

/-- **C117**: the request of a row is that of the last row at or before it with submove 0. -/
theorem C117_last (float : PyStr → Except PyErr ℝ) (d : Ptl2fp.Dict) (r2z : ℝ → ℝ) (rows : List Row) (ps : List (ℝ × ℝ))
    (h : requests float d r2z rows = .ok ps) (i : ℕ) (p : ℝ × ℝ) (hp : ps[i]? = some p) :
    ∃ j r q c, j ≤ i ∧ rows[j]? = some r ∧ r.sub = 0 ∧ (∀ k r', j < k → k ≤ i → rows[k]? = some r' → r'.sub ≠ 0) ∧
      command float r = .ok q ∧ Effective r q c ∧ Asked d r2z r c p := by
  obtain ⟨h1, h2⟩ := (C117_rows float d r2z rows ps).1 h
  induction i with
  | zero =>
    have hi : 0 < rows.length := by rw [← h1]; exact (List.getElem?_eq_some_iff.1 hp).1
    obtain ⟨q, c, k1, k2, k3, k4⟩ := h2 0 rows[0] p (List.getElem?_eq_getElem hi) hp
    by_cases hs : (rows[0]).sub = 0
    · exact ⟨0, rows[0], q, c, le_rfl, List.getElem?_eq_getElem hi, hs, fun k r' a b => by omega, k1, k2, k3 hs⟩
    · obtain ⟨j, e, -⟩ := k4 hs
      omega
  | succ i ih =>
    have hi : i + 1 < rows.length := by rw [← h1]; exact (List.getElem?_eq_some_iff.1 hp).1
    obtain ⟨q, c, k1, k2, k3, k4⟩ := h2 (i + 1) rows[i + 1] p (List.getElem?_eq_getElem hi) hp
    by_cases hs : (rows[i + 1]).sub = 0
    · exact ⟨i + 1, rows[i + 1], q, c, le_rfl, List.getElem?_eq_getElem hi, hs, fun k r' a b => by omega, k1, k2, k3 hs⟩
    · obtain ⟨j, e, e2⟩ := k4 hs
      obtain rfl : i = j := by omega
      obtain ⟨j, r, q', c', m1, m2, m3, m4, m5⟩ := ih e2
      refine ⟨j, r, q', c', by omega, m2, m3, ?_, m5⟩
      intro k r' a b hk
      by_cases hki : k = i + 1
      · subst hki
        rw [List.getElem?_eq_getElem hi, Option.some.injEq] at hk
        rw [← hk]; exact hs
      · exact m4 k r' a (by omega) hk

/-- The coordinates of the commands that are moves. -/
def IsCoord (c : PyStr) : Prop := c ∈ ["QS".toList, "obsXY".toList, "poslocXY".toList, "ptlXY".toList, "posintTP".toList, "poslocTP".toList,
  "dQdS".toList, "obsdXdY".toList, "poslocdXdY".toList, "dTdP".toList]

theorem request_eq (a rest : PyStr) (ha : ';' ∉ a) (hr : rest = [] ∨ ∃ u, rest = ';' :: u) : request (a ++ rest) = a := by
  unfold request
  rcases hr with rfl | ⟨u, rfl⟩
  · rw [List.append_nil, split_none ha]; rfl
  · rw [split_first ha]; rfl

theorem coord_plain {c : PyStr} (h : IsCoord c) : '=' ∉ c ∧ ';' ∉ c := by
  have : ∀ x ∈ ["QS".toList, "obsXY".toList, "poslocXY".toList, "ptlXY".toList, "posintTP".toList, "poslocTP".toList,
    "dQdS".toList, "obsdXdY".toList, "poslocdXdY".toList, "dTdP".toList], '=' ∉ x ∧ ';' ∉ x := by decide
  exact this c h

/-- **C117**: a command `coord=[a,b]`, possibly followed by `;` and other commands, is read as the coordinates and the numbers `a` and `b`. -/
theorem C117_command (float : PyStr → Except PyErr ℝ) (r : Row) (c a b rest : PyStr) (x y : ℝ) (hc : IsCoord c)
    (hcmd : r.cmd = c ++ '=' :: ('[' :: (a ++ ',' :: b) ++ [']']) ++ rest)
    (ha : ∀ x ∈ a, x ∉ ['=', '[', ']', ',', ';']) (hb : ∀ x ∈ b, x ∉ ['=', '[', ']', ',', ';'])
    (hr : rest = [] ∨ ∃ u, rest = ';' :: u) (hx : float a = .ok x) (hy : float b = .ok y) :
    command float r = .ok (some ⟨c, x, y⟩) := by
  have nm : ∀ ch, ch ∈ ['=', '[', ']', ';'] → ch ∉ a ++ ',' :: b := by
    intro ch hch hm
    rcases List.mem_append.1 hm with hm | hm
    · exact ha ch hm (by revert hch; simp; tauto)
    · rcases List.mem_cons.1 hm with hm | hm
      · rw [hm] at hch; revert hch; decide
      · exact hb ch hm (by revert hch; simp; tauto)
  have nm2 : ∀ ch, ch ∈ ['=', ';'] → ch ∉ '[' :: (a ++ ',' :: b) ++ [']'] := by
    intro ch hch hm
    rcases List.mem_append.1 hm with hm | hm
    · rcases List.mem_cons.1 hm with hm | hm
      · rw [hm] at hch; revert hch; decide
      · exact nm ch (by revert hch; simp; tauto) hm
    · have : ch = ']' := by simpa using hm
      rw [this] at hch; revert hch; decide
  have hreq : request r.cmd = c ++ '=' :: ('[' :: (a ++ ',' :: b) ++ [']']) := by
    rw [hcmd]
    refine request_eq _ _ ?_ hr
    intro hm
    rcases List.mem_append.1 hm with hm | hm
    · exact (coord_plain hc).2 hm
    · rcases List.mem_cons.1 hm with hm | hm
      · revert hm; decide
      · exact nm2 ';' (by simp) hm
  have hsp : split ['='] (request r.cmd) = [c, '[' :: (a ++ ',' :: b) ++ [']']] := by
    rw [hreq, split_first (coord_plain hc).1, split_none (nm2 '=' (by simp))]
  have hco : LegacyReq.coordOf r.cmd = c := by unfold LegacyReq.coordOf; rw [hsp]; rfl
  have e3 : PerfMoves.stripC '[' ('[' :: (a ++ ',' :: b) ++ [']']) = (a ++ ',' :: b) ++ [']'] := by
    have := stripC_eq (c := '[') (a := ['[']) (m := (a ++ ',' :: b) ++ [']']) (b := []) (by simp) (by simp) (by
      intro hm
      rcases List.mem_append.1 hm with hm | hm
      · exact nm '[' (by simp) hm
      · revert hm; decide)
    simpa using this
  have e4 : PerfMoves.stripC ']' ((a ++ ',' :: b) ++ [']']) = a ++ ',' :: b := by
    have := stripC_eq (c := ']') (a := []) (m := a ++ ',' :: b) (b := [']']) (by simp) (by simp) (nm ']' (by simp))
    simpa using this
  have e5 : split [','] (a ++ ',' :: b) = [a, b] := by
    rw [split_first (fun hm => ha _ hm (by simp)), split_none (fun hm => hb _ hm (by simp))]
  have hv : values float r.cmd = .ok (x, y) := by
    unfold values
    rw [hsp]
    show (do let a' ← num float (split [','] (PerfMoves.stripC ']' (PerfMoves.stripC '[' ('[' :: (a ++ ',' :: b) ++ [']'])))) 0
             let b' ← num float (split [','] (PerfMoves.stripC ']' (PerfMoves.stripC '[' ('[' :: (a ++ ',' :: b) ++ [']'])))) 1
             return (a', b')) = _
    rw [e3, e4, e5]
    have n0 : num float [a, b] 0 = .ok x := hx
    have n1 : num float [a, b] 1 = .ok y := hy
    rw [n0, n1]
    rfl
  unfold command
  have hc2 : allCoords.contains c = true := List.contains_iff_mem.2 hc
  rw [hco, if_pos hc2, hv]
  rfl

/-- **C117**: a command naming no known coordinates is no move, and such a row is never unreadable. -/
theorem C117_other_command (float : PyStr → Except PyErr ℝ) (r : Row) (c rest : PyStr) (hc : ¬ IsCoord c) (h1 : '=' ∉ c) (h2 : ';' ∉ c)
    (hcmd : r.cmd = c ++ rest) (hr : rest = [] ∨ (∃ u, rest = ';' :: u) ∨ ∃ u, rest = '=' :: u) : command float r = .ok none := by
  have hco : LegacyReq.coordOf r.cmd = c := by
    unfold LegacyReq.coordOf
    rcases hr with rfl | ⟨u, rfl⟩ | ⟨u, rfl⟩
    · rw [hcmd, request_eq c [] h2 (Or.inl rfl), split_none h1]; rfl
    · rw [hcmd, request_eq c _ h2 (Or.inr ⟨u, rfl⟩), split_none h1]; rfl
    · rw [hcmd]
      unfold request
      by_cases hu : ';' ∈ u
      · obtain ⟨a, b, e, ha⟩ := List.eq_append_cons_of_mem hu
        rw [e, show c ++ '=' :: (a ++ ';' :: b) = (c ++ '=' :: a) ++ ';' :: b by simp, split_first]
        · show (split ['='] (c ++ '=' :: a)).headD [] = c
          rw [split_first h1]; rfl
        · intro hm
          rcases List.mem_append.1 hm with hm | hm
          · exact h2 hm
          · rcases List.mem_cons.1 hm with hm | hm
            · revert hm; decide
            · exact ha hm
      · rw [split_none (c := ';')]
        · show (split ['='] (c ++ '=' :: u)).headD [] = c
          rw [split_first h1]; rfl
        · intro hm
          rcases List.mem_append.1 hm with hm | hm
          · exact h2 hm
          · rcases List.mem_cons.1 hm with hm | hm
            · revert hm; decide
            · exact hu hm
  unfold command
  rw [hco, if_neg]
  · rfl
  · intro h
    exact hc (List.contains_iff_mem.1 h)

/-- **C117**: a request in petal coordinates comes back as PTL_X_REQUESTED, PTL_Y_REQUESTED to 5 microns (within 431 mm of the centre). -/
theorem C117_ptl (d : Ptl2fp.Dict) (r2z : ℝ → ℝ) (r : Row) (a b : ℝ) (p : ℝ × ℝ) (h : Asked d r2z r ⟨"ptlXY".toList, a, b⟩ p)
    (hr : Spec.radius (a, b) ≤ 431) : Spec.dist2 (ptlOf p) (a, b) ≤ 5 / 1000 := by
  have hp : p = Xy2qs.ptl2flat a b := by
    have := (place_iff d r2z r ⟨"ptlXY".toList, a, b⟩ p).2 h
    rw [place, if_pos rfl] at this
    exact (Except.ok.inj this).symm
  obtain ⟨_, _, -, -, -, -, -, -, -, -, -, h5⟩ := C12_qs_round_trip a b hr
  rw [hp]
  unfold ptlOf
  rw [(C12_uv_flat a b hr).2]
  exact h5

/-- **C117**: a request in focal plane coordinates is, to 5 microns in the petal, a point which `ptl2fp` takes to the point asked for. -/
theorem C117_obs (d : Ptl2fp.Dict) (r2z : ℝ → ℝ) (r : Row) (a b : ℝ) (p : ℝ × ℝ) (h : Asked d r2z r ⟨"obsXY".toList, a, b⟩ p) :
    ∃ u f : Fin 3 → ℝ, Ptl2fp.ptl2fp d r.petal u = .ok f ∧ f 0 = a ∧ f 1 = b ∧
      (Spec.radius (u 0, u 1) ≤ 431 → Spec.dist2 (ptlOf p) (u 0, u 1) ≤ 5 / 1000) := by
  have hp := (place_iff d r2z r ⟨"obsXY".toList, a, b⟩ p).2 h
  rw [place, if_neg (by dsimp only; decide), if_neg (by dsimp only; decide), if_pos rfl, fromFp_iff] at hp
  obtain ⟨u, h1, h2⟩ := hp
  refine ⟨u, _, h1, rfl, rfl, ?_⟩
  intro hr
  obtain ⟨_, _, -, -, -, -, -, -, -, -, -, h5⟩ := C12_qs_round_trip (u 0) (u 1) hr
  rw [h2]
  unfold ptlOf
  rw [(C12_uv_flat (u 0) (u 1) hr).2]
  exact h5

/-- **C117**: a request in coordinates of the positioner comes back as LOC_X_REQUESTED, LOC_Y_REQUESTED. -/
theorem C117_loc (d : Ptl2fp.Dict) (r2z : ℝ → ℝ) (r : Row) (a b : ℝ) (p : ℝ × ℝ) (h : Asked d r2z r ⟨"poslocXY".toList, a, b⟩ p) :
    locOf r.cal p = (a, b) := by
  have hp : p = (r.cal.x + a, r.cal.y + b) := by
    rcases h with ⟨h, -⟩ | ⟨h, -⟩ | ⟨h, -⟩ | ⟨-, h⟩ | ⟨h | h, -⟩
    · exact absurd h (by dsimp only; decide)
    · exact absurd h (by dsimp only; decide)
    · exact absurd h (by dsimp only; decide)
    · exact h
    · exact absurd h (by dsimp only; decide)
    · exact absurd h (by dsimp only; decide)
  rw [hp]
  unfold locOf
  simp

theorem asked_int (d : Ptl2fp.Dict) (r2z : ℝ → ℝ) (r : Row) (a b : ℝ) (p : ℝ × ℝ) :
    (Asked d r2z r ⟨"posintTP".toList, a, b⟩ p ↔ p = tip r.cal a b) ∧ (Asked d r2z r ⟨"poslocTP".toList, a, b⟩ p ↔ p = tip r.cal a b) := by
  constructor
  · constructor
    · intro h
      rcases h with ⟨h, -⟩ | ⟨h, -⟩ | ⟨h, -⟩ | ⟨h, -⟩ | ⟨-, h⟩
      · exact absurd h (by dsimp only; decide)
      · exact absurd h (by dsimp only; decide)
      · exact absurd h (by dsimp only; decide)
      · exact absurd h (by dsimp only; decide)
      · exact h
    · intro h; exact Or.inr (Or.inr (Or.inr (Or.inr ⟨Or.inl rfl, h⟩)))
  · constructor
    · intro h
      rcases h with ⟨h, -⟩ | ⟨h, -⟩ | ⟨h, -⟩ | ⟨h, -⟩ | ⟨-, h⟩
      · exact absurd h (by dsimp only; decide)
      · exact absurd h (by dsimp only; decide)
      · exact absurd h (by dsimp only; decide)
      · exact absurd h (by dsimp only; decide)
      · exact h
    · intro h; exact Or.inr (Or.inr (Or.inr (Or.inr ⟨Or.inr rfl, h⟩)))

/-- **C117**: a row of submove 0 without a move, and one asking for the angles it has, is requested to be where the tracked angles put it:
PTL_X_REQUESTED, PTL_Y_REQUESTED are what `int2ptl` gives for POS_T, POS_P. -/
theorem C117_tracked (d : Ptl2fp.Dict) (r2z : ℝ → ℝ) (r : Row) (q : Option Cmd) (c : Cmd) (p : ℝ × ℝ) (he : Effective r q c)
    (hq : q = none ∨ q = some ⟨"posintTP".toList, r.posT, r.posP⟩) (h : Asked d r2z r c p) :
    Int2ptl.int2ptl [r.posT] [r.posP] [r.cal.r1] [r.cal.r2] [r.cal.tOff] [r.cal.pOff] [r.cal.x] [r.cal.y] = .ok ([(ptlOf p).1], [(ptlOf p).2]) := by
  have hc : c = ⟨"posintTP".toList, r.posT, r.posP⟩ := by
    rcases hq with rfl | rfl
    · rcases he with he | he
      · exact nomatch he
      · exact he.2
    · rcases he with he | he
      · exact (Option.some.inj he).symm
      · exact nomatch he.1
  rw [hc] at h
  rw [(asked_int d r2z r _ _ p).1] at h
  have := Props.Int2ptl.int2ptl_run 1 (fun _ => r.posT) (fun _ => r.posP) (fun _ => r.cal)
  simp only [Props.Int2ptl.col, List.range_one, List.map_cons, List.map_nil] at this
  rw [this, h]
  rfl

/-- Where the fibre is when its arms are seen at the angles `t` and `p`, as `poslocTP` is documented. -/
noncomputable def seenAt (c : Int2ptl.Cal) (t p : ℝ) : ℝ × ℝ :=
  (c.x + (c.r1 * Real.cos (t * Real.pi / 180) + c.r2 * Real.cos ((t + p) * Real.pi / 180)),
   c.y + (c.r1 * Real.sin (t * Real.pi / 180) + c.r2 * Real.sin ((t + p) * Real.pi / 180)))

/-- **C117** (finding) requests in `poslocTP`, angles as seen from outside according to the documentation of `pos2ptl`, are read as the internal
angles of `posintTP`: the mounting angles are added to them. For a positioner mounted at 180 degrees the request for the angles 0, 0 is put on the
wrong side. -/
theorem C117_external_angles (d : Ptl2fp.Dict) (r2z : ℝ → ℝ) (r : Row) (a b : ℝ) (p : ℝ × ℝ) :
    (Asked d r2z r ⟨"poslocTP".toList, a, b⟩ p ↔ Asked d r2z r ⟨"posintTP".toList, a, b⟩ p) ∧
    (Asked d r2z r ⟨"poslocTP".toList, a, b⟩ p ↔ p = seenAt r.cal (a + r.cal.tOff) (b + r.cal.pOff)) ∧
    (Asked d r2z r ⟨"poslocTP".toList, 0, 0⟩ p → r.cal.tOff = 180 → r.cal.pOff = 0 → seenAt r.cal 0 0 = (r.cal.x + (r.cal.r1 + r.cal.r2), r.cal.y) ∧
      p = (r.cal.x - (r.cal.r1 + r.cal.r2), r.cal.y)) := by
  have ht : ∀ a b, tip r.cal a b = seenAt r.cal (a + r.cal.tOff) (b + r.cal.pOff) := by
    intro a b
    unfold tip seenAt
    rw [show a + r.cal.tOff + b + r.cal.pOff = a + r.cal.tOff + (b + r.cal.pOff) by ring]
  refine ⟨by rw [(asked_int d r2z r a b p).1, (asked_int d r2z r a b p).2], by rw [(asked_int d r2z r a b p).2, ht], ?_⟩
  intro h h1 h2
  rw [(asked_int d r2z r 0 0 p).2, ht, h1, h2] at h
  constructor
  · simp [seenAt]
  · rw [h]
    have e : (180 : ℝ) * Real.pi / 180 = Real.pi := by ring
    simp [seenAt, e]
    ring

/-- A correction after a move to a place in the petal: both rows have the place of the first. -/
example (d : Ptl2fp.Dict) (r2z : ℝ → ℝ) (cal : Int2ptl.Cal) : requests (fun _ => .ok 5) d r2z
    [⟨"ptlXY=[5,5]; (auto final)".toList, 0, 1, 2, 3, cal⟩, ⟨"obsdXdY=[5,5]".toList, 1, 1, 2, 3, cal⟩] =
      .ok [Xy2qs.ptl2flat 5 5, Xy2qs.ptl2flat 5 5] := by
  rw [C117_rows]
  refine ⟨rfl, ?_⟩
  intro i r p hr hp
  rcases i with _ | _ | i
  · obtain rfl := (Option.some.inj hr : _ = r)
    obtain rfl := (Option.some.inj hp : _ = p)
    exact ⟨some ⟨"ptlXY".toList, 5, 5⟩, _, rfl, Or.inl rfl, fun _ => Or.inl ⟨rfl, rfl⟩, fun h => absurd rfl h⟩
  · obtain rfl := (Option.some.inj hr : _ = r)
    obtain rfl := (Option.some.inj hp : _ = p)
    exact ⟨some ⟨"obsdXdY".toList, 5, 5⟩, _, rfl, Or.inl rfl, fun h => absurd (show (1 : ℤ) = 0 from h) (by decide), fun _ => ⟨0, rfl, rfl⟩⟩
  · simp at hr

/-- **C117** (finding) when the first row is a correction (submove not 0), or a row of submove 0 has a relative command, there is no result. -/
theorem C117_no_request (float : PyStr → Except PyErr ℝ) (d : Ptl2fp.Dict) (r2z : ℝ → ℝ) (rows : List Row)
    (h : (∃ r rest, rows = r :: rest ∧ r.sub ≠ 0) ∨
      ∃ r ∈ rows, ∃ c a b, r.sub = 0 ∧ command float r = .ok (some ⟨c, a, b⟩) ∧
        c ∈ ["dQdS".toList, "obsdXdY".toList, "poslocdXdY".toList, "dTdP".toList]) (ps : List (ℝ × ℝ)) : requests float d r2z rows ≠ .ok ps := by
  intro hok
  obtain ⟨h1, h2⟩ := (C117_rows float d r2z rows ps).1 hok
  rcases h with ⟨r, rest, rfl, hs⟩ | ⟨r, hr, c, a, b, hs, hq, hc⟩
  · have hp : 0 < ps.length := by rw [h1]; simp
    obtain ⟨q, c, -, -, -, k⟩ := h2 0 r ps[0] rfl (List.getElem?_eq_getElem hp)
    obtain ⟨j, e, -⟩ := k hs
    omega
  · obtain ⟨i, hi⟩ := List.mem_iff_getElem?.1 hr
    have hp : i < ps.length := by rw [h1]; exact (List.getElem?_eq_some_iff.1 hi).1
    obtain ⟨q, c', k1, k2, k3, -⟩ := h2 i r ps[i] hi (List.getElem?_eq_getElem hp)
    rw [hq] at k1
    have hq' := Except.ok.inj k1
    subst hq'
    rcases k2 with k2 | k2
    · have := asked_abs (k3 hs)
      rw [← Option.some.inj k2, List.contains_iff_mem] at this
      dsimp only at this
      have key : ∀ x ∈ ["dQdS".toList, "obsdXdY".toList, "poslocdXdY".toList, "dTdP".toList], x ∉ absCoords := by decide
      exact key c hc this
    · exact nomatch k2.1

theorem loop_cases (d : Ptl2fp.Dict) (r2z : ℝ → ℝ) (l : List (Row × Option Cmd)) (hd : ∀ rq ∈ l, (d rq.1.petal).isSome) : ∀ (last : Option (ℝ × ℝ)),
    (∃ ps, loop d r2z last l = .ok ps) ∨ loop d r2z last l = .error .assertionError := by
  induction l with
  | nil => intro last; exact Or.inl ⟨[], rfl⟩
  | cons rq rest ih =>
    intro last
    obtain ⟨r, q⟩ := rq
    have ih' := ih (fun rq h => hd rq (List.mem_cons_of_mem _ h))
    rw [loop]
    by_cases h : r.sub = 0 ∧ absCoords.contains (effective r q).coord = true
    · rw [if_pos h]
      have hp : ∃ p, place d r2z r (effective r q) = .ok p := by
        have hfp : ∀ V, ∃ u, Ptl2fp.ptl2fp d r.petal u = .ok V := by
          intro V
          have := (C10_inverse d r.petal V).2
          rw [if_pos (hd (r, q) (List.mem_cons_self)), bind_ok_iff] at this
          obtain ⟨u, -, hu⟩ := this
          exact ⟨u, hu⟩
        simp only [place_iff]
        have hm := List.contains_iff_mem.1 h.2
        unfold absCoords at hm
        simp only [List.mem_cons, List.not_mem_nil, or_false] at hm
        unfold Asked
        rcases hm with hm | hm | hm | hm | hm | hm
        · obtain ⟨u, hu⟩ := hfp (Ptl2fp.withZ r2z (Xy2qs.qs2xy (effective r q).a (effective r q).b).1 (Xy2qs.qs2xy (effective r q).a (effective r q).b).2)
          exact ⟨_, Or.inr (Or.inl ⟨hm, u, hu, rfl⟩)⟩
        · obtain ⟨u, hu⟩ := hfp (Ptl2fp.withZ r2z (effective r q).a (effective r q).b)
          exact ⟨_, Or.inr (Or.inr (Or.inl ⟨hm, u, hu, rfl⟩))⟩
        · exact ⟨_, Or.inr (Or.inr (Or.inr (Or.inl ⟨hm, rfl⟩)))⟩
        · exact ⟨_, Or.inl ⟨hm, rfl⟩⟩
        · exact ⟨_, Or.inr (Or.inr (Or.inr (Or.inr ⟨Or.inl hm, rfl⟩)))⟩
        · exact ⟨_, Or.inr (Or.inr (Or.inr (Or.inr ⟨Or.inr hm, rfl⟩)))⟩
      obtain ⟨p, hp⟩ := hp
      rw [hp]
      rcases ih' (some p) with ⟨ps, e⟩ | e
      · exact Or.inl ⟨some p :: ps, by show (loop d r2z (some p) rest >>= _) = _; rw [e]; rfl⟩
      · exact Or.inr (by show (loop d r2z (some p) rest >>= _) = _; rw [e]; rfl)
    · rw [if_neg h]
      by_cases hs : r.sub ≠ 0
      · rw [if_pos hs]
        rcases ih' last with ⟨ps, e⟩ | e
        · exact Or.inl ⟨last :: ps, by rw [e]; rfl⟩
        · exact Or.inr (by rw [e]; rfl)
      · rw [if_neg hs]
        exact Or.inr rfl

/-- **C117**: when all commands can be read and all petals are known, the requests are found or an AssertionError says they cannot be. -/
theorem C117_assertion (float : PyStr → Except PyErr ℝ) (d : Ptl2fp.Dict) (r2z : ℝ → ℝ) (rows : List Row)
    (h1 : ∀ r ∈ rows, ∃ q, command float r = .ok q) (h2 : ∀ r ∈ rows, (d r.petal).isSome) :
    (∃ ps, requests float d r2z rows = .ok ps) ∨ requests float d r2z rows = .error .assertionError := by
  obtain ⟨cs, hcs⟩ := FpMetrology.mapM_ok_of h1
  unfold requests
  rw [hcs]
  show (∃ ps, (loop d r2z none (rows.zip cs) >>= allKnown) = .ok ps) ∨ (loop d r2z none (rows.zip cs) >>= allKnown) = _
  rcases loop_cases d r2z (rows.zip cs) (fun rq h => h2 _ (List.of_mem_zip h).1) none with ⟨l, e⟩ | e
  · rw [e]
    show (∃ ps, allKnown l = .ok ps) ∨ allKnown l = _
    clear e
    induction l with
    | nil => exact Or.inl ⟨[], rfl⟩
    | cons a l ih =>
      unfold allKnown at ih ⊢
      rw [List.mapM_cons]
      cases a with
      | none => exact Or.inr rfl
      | some a =>
        rcases ih with ⟨ps, e⟩ | e
        · exact Or.inl ⟨a :: ps, by rw [e]; rfl⟩
        · exact Or.inr (by rw [e]; rfl)
  · rw [e]; exact Or.inr rfl

/-- Tokens giving the move, here. -/
def IsMove (t : PyStr) : Prop := "move".toList <+: t

theorem noteStep_ok {n : Num} {s s' : NoteSt} {t : PyStr} (h : noteStep n s t = .ok s') :
    (IsSeq t → ∃ v, s'.seq = some v ∧ Val n t v) ∧ (¬ IsSeq t → s'.seq = s.seq) ∧
    (IsMove t → ∃ v, s'.move = some v ∧ Val n t v) ∧ (¬ IsMove t → s'.move = s.move) ∧
    (IsSub t → Val n t s'.sub) ∧ (¬ IsSub t → s'.sub = s.sub) := by
  unfold noteStep at h
  unfold IsSeq IsMove IsSub
  simp only [← List.isPrefixOf_iff_prefix]
  simp only [← parseVal_iff]
  generalize "sequence_move_idx".toList.isPrefixOf t = b1 at *
  generalize "move".toList.isPrefixOf t = b2 at *
  generalize "submove".toList.isPrefixOf t = b3 at *
  cases hv : parseVal n t with
  | error e =>
    rw [hv] at h
    cases b1 <;> cases b2 <;> cases b3 <;> simp [bind, Except.bind, pure, Except.pure] at h
    subst h
    simp
  | ok v =>
    rw [hv] at h
    cases b1 <;> cases b2 <;> cases b3 <;> simp [bind, Except.bind, pure, Except.pure] at h <;> subst h <;> simp

/-- **C117**: MOVE and SUBMOVE are those of the last tokens of the note that give them. SEQUENCE_MOVE_IDX too, but for a row with a command and no
such token whose note speaks of a sequence it is one less than MOVE, if there is one. -/
theorem C117_note (n : Num) (cmd note : PyStr) (sub : ℤ) (s : NoteSt) (h : noteOf n cmd note sub = .ok s) :
    LastVal IsMove (fun t v => ∃ k, v = some k ∧ Val n t k) none (PerfRead.tokens note) s.move ∧
    LastVal IsSub (Val n) sub (PerfRead.tokens note) s.sub ∧
    ((∃ t ∈ PerfRead.tokens note, IsSeq t) → LastVal IsSeq (fun t v => ∃ k, v = some k ∧ Val n t k) none (PerfRead.tokens note) s.seq) ∧
    ((∀ t ∈ PerfRead.tokens note, ¬ IsSeq t) → s.seq = if PerfRead.nullStr (some cmd) = false ∧ pyIn "sequence".toList note = true then
      s.move.map (· - 1) else none) := by
  unfold noteOf at h
  obtain ⟨s1, h1, h2⟩ := (bind_ok_iff _ _ _).1 h
  have hm := foldlM_last (noteStep n) NoteSt.move IsMove (fun t v => ∃ k, v = some k ∧ Val n t k)
    (fun s t s' h hp => (noteStep_ok h).2.2.1 hp) (fun s t s' h hp => (noteStep_ok h).2.2.2.1 hp) _ _ _ h1
  have hs := foldlM_last (noteStep n) NoteSt.sub IsSub (Val n)
    (fun s t s' h hp => (noteStep_ok h).2.2.2.2.1 hp) (fun s t s' h hp => (noteStep_ok h).2.2.2.2.2 hp) _ _ _ h1
  have hq := foldlM_last (noteStep n) NoteSt.seq IsSeq (fun t v => ∃ k, v = some k ∧ Val n t k)
    (fun s t s' h hp => (noteStep_ok h).1 hp) (fun s t s' h hp => (noteStep_ok h).2.1 hp) _ _ _ h1
  have hsm : s.move = s1.move ∧ s.sub = s1.sub := by
    split_ifs at h2 <;> rw [← Except.ok.inj h2] <;> exact ⟨rfl, rfl⟩
  refine ⟨by rw [hsm.1]; exact hm, by rw [hsm.2]; exact hs, ?_, ?_⟩
  · rintro ⟨t, ht, hI⟩
    have hne : s1.seq ≠ none := by
      rcases hq with ⟨g, -⟩ | ⟨_, _, _, -, -, -, k, e, -⟩
      · exact absurd hI (g t ht)
      · rw [e]; simp
    rw [if_neg (fun h' => hne h'.2.1)] at h2
    rw [← Except.ok.inj h2]
    exact hq
  · intro hno
    have hnone : s1.seq = none := by
      rcases hq with ⟨-, g⟩ | ⟨pre, t, post, e, hI, -⟩
      · exact g
      · exact absurd hI (hno t (by rw [e]; simp))
    by_cases hb : PerfRead.nullStr (some cmd) = false ∧ pyIn "sequence".toList note = true
    · rw [if_pos ⟨hb.1, hnone, hb.2⟩] at h2
      rw [if_pos hb, ← Except.ok.inj h2]
    · rw [if_neg (fun h' => hb ⟨h'.1, h'.2.2⟩)] at h2
      rw [if_neg hb, ← Except.ok.inj h2]; exact hnone

/-- **C117** (finding) unlike in the script that replaced it, a note with the token `move_to_range` stops the program: the token is taken for the
number of the move. -/
theorem C117_move_to_range (n : Num) (cmd note : PyStr) (sub : ℤ) (h : "move_to_range".toList ∈ PerfRead.tokens note) (s : NoteSt) :
    noteOf n cmd note sub ≠ .ok s := by
  intro hok
  unfold noteOf at hok
  obtain ⟨s1, h1, -⟩ := (bind_ok_iff _ _ _).1 hok
  have he : ∀ s, noteStep n s "move_to_range".toList = .error .indexError := fun _ => rfl
  generalize PerfRead.tokens note = ts at h h1
  generalize (⟨none, none, sub⟩ : NoteSt) = s0 at h1
  induction ts generalizing s0 with
  | nil => simp at h
  | cons t ts ih =>
    rw [List.foldlM_cons, bind_ok_iff] at h1
    obtain ⟨m, hm, h1⟩ := h1
    rcases List.mem_cons.1 h with h | h
    · rw [← h, he] at hm; exact nomatch hm
    · exact ih h m h1

end Verif.Props.LegacyReq
