import Verif.Props.FindFiducialsExact

/-!
# Property C35: the first transform of a process is used for ever
-/

namespace Verif.Props
open Verif.Py Verif.Model.Match Verif.Model.FindFiducials Verif.Model.SimpleCorr
open Verif.Model.AverageCoord (okPairs matchLists)
open Verif.Spec (OnLine Affine)
open Verif.Lemmas.SimpleCorr (firsts)

namespace Fid

theorem fit_line (l : List Verif.Model.SimpleCorr.Pair) (h : OnLine (firsts l)) : fit fresh l = .error .linAlgError := by
  have hd := (Verif.Lemmas.SimpleCorr.gram3_iff l).2 h
  unfold fit linInv
  simp only [hd, if_true]
  rfl

theorem iterate_line (env : Env) (hg : Avg.Good env.same) (x1 x2 : List (ℝ × ℝ)) (h : OnLine x2) (k : ℕ) (saved : ℝ) :
    iterate env x1 (k + 1) x2 saved = .error .linAlgError := by
  unfold iterate
  dsimp only
  generalize (if k = 0 then (10 : ℝ) else max 10 (3 * (14 / 10) *
    Verif.Model.MatchPositioners.median (matchedDist (matchLists env.same x1 x2)))) = lim
  obtain ⟨f1, -⟩ := Avg.match_facts env.same hg lim x1 x2
  rw [fit_line]
  · rfl
  · obtain ⟨a, b, c, hne, h⟩ := h
    refine ⟨a, b, c, hne, ?_⟩
    intro q hq
    unfold firsts at hq
    rw [List.map_map, List.mem_map] at hq
    obtain ⟨p, hp, rfl⟩ := hq
    obtain ⟨-, q2, -⟩ := f1 p.1 p.2 hp
    simp only [Function.comp]
    rw [List.getD_eq_getElem _ _ q2]
    exact h _ (List.getElem_mem _)

end Fid
open Fid

/-- C35 (finding): the pixel positions of the pinholes are computed once per process.  If the
transform of the first call puts them on a line, every later call raises LinAlgError, whatever
transform and spots it is given. -/
theorem C35_stale (env : Env) (hg : Fid.Good env) (metro : List Pin) (first : Call) (tx1 : Tx) (h1 : first.tx = .ok tx1)
    (hline : OnLine (metro.map fun p => tx1.toPix p.fp)) (later : List Call) (a : Call) (tx : Tx) (ha : a.tx = .ok tx) :
    (findfiducials env metro (after env metro (first :: later)) a).1 = .error .linAlgError := by
  rw [(C35_history env metro (first :: later) a).2 first [] later rfl (by simp) (by rw [h1]; simp [Except.toOption]), after_build]
  unfold findfiducials
  rw [ha]
  simp only [List.findSome?_cons, h1, Except.toOption, Option.map_some, Option.getD_some]
  have hl : OnLine ((build metro tx1).fids.map (pixAt (build metro tx1).pins)) := by
    obtain ⟨u, v, w, hne, hq⟩ := hline
    refine ⟨u, v, w, hne, ?_⟩
    intro q hqm
    obtain ⟨i, hi, rfl⟩ := List.mem_map.1 hqm
    have hlt := (build_locs metro tx1).2 i hi
    apply hq
    rw [pixAt_eq i metro[i] (List.getElem?_eq_getElem hlt)]
    exact List.mem_map.2 ⟨metro[i], List.getElem_mem _, rfl⟩
  unfold findWith
  dsimp only
  rw [iterate_line env hg.same _ _ hl]
  rfl

namespace Fid

/-- Library routines as required exist. -/
theorem good_exists : ∃ env : Env, Good env := by
  have hs := sorts_exists (κ := WithTop ℝ)
  have hs2 := sorts_exists (κ := ℝ)
  have hnear : ∀ (m : ℕ) (xy : Fin m → ℝ × ℝ) (h : 0 < m) (p : ℝ × ℝ), ∃ i, ∀ k, dist2 p (xy i) ≤ dist2 p (xy k) := by
    intro m xy h p
    have : Nonempty (Fin m) := ⟨⟨0, h⟩⟩
    exact Finite.exists_min fun i => dist2 p (xy i)
  have htri : ∀ (l : List (ℝ × ℝ × ℝ)) (v : ℝ × ℝ × ℝ), ∃ n : ℕ, l ≠ [] → ∃ x, l[n]? = some x ∧ ∀ y ∈ l, dist3 v x ≤ dist3 v y := by
    intro l v
    by_cases hl : l = []
    · exact ⟨0, fun h => absurd hl h⟩
    · have : Nonempty (Fin l.length) := ⟨⟨0, List.length_pos_iff.2 hl⟩⟩
      obtain ⟨i, hi⟩ := Finite.exists_min fun i : Fin l.length => dist3 v l[i]
      refine ⟨i, fun _ => ⟨l[i], by simp, ?_⟩⟩
      intro y hy
      obtain ⟨j, hj, rfl⟩ := List.getElem_of_mem hy
      exact hi ⟨j, hj⟩
  choose nt hnt using htri
  classical
  let W : List (ℝ × ℝ) → WithTop ℝ → ℕ → List ℕ := fun pts r i =>
    pySort (fun j => dist2 (pts.getD i (0, 0)) (pts.getD j (0, 0))) ((List.range pts.length).filter fun j =>
      ((dist2 (pts.getD i (0, 0)) (pts.getD j (0, 0)) : ℝ) : WithTop ℝ) < r)
  refine ⟨⟨⟨_, fun {m} xy h p => (hnear m xy h p).choose⟩, fun pts r i => (W pts r i).take 4,
    fun {n} xy => pySort (fun i => (xy i).1) (List.finRange n), nt, _⟩, ⟨hs, ?_⟩, ?_, ?_, ?_, hs2⟩
  · intro m xy h p k
    exact (hnear m xy h p).choose_spec k
  · intro pts r i hi
    have hp : (W pts r i).Perm _ := Lemmas.perm_pySort _ _
    have hn : (W pts r i).Nodup := hp.nodup_iff.2 (List.nodup_range.filter _)
    have hm : ∀ j, j ∈ W pts r i ↔ j < pts.length ∧ ((dist2 (pts.getD i (0, 0)) (pts.getD j (0, 0)) : ℝ) : WithTop ℝ) < r := by
      intro j
      rw [hp.mem_iff, List.mem_filter, List.mem_range]
      simp
    refine ⟨hn.sublist (List.take_sublist _ _), List.length_take_le _ _, ?_, ?_⟩
    · intro j hj
      exact (hm j).1 (List.mem_of_mem_take hj)
    · intro j h1 h2
      have hj := (hm j).2 ⟨h1, h2⟩
      have hsort := Lemmas.sorted_pySort (fun j => dist2 (pts.getD i (0, 0)) (pts.getD j (0, 0))) ((List.range pts.length).filter fun j =>
        ((dist2 (pts.getD i (0, 0)) (pts.getD j (0, 0)) : ℝ) : WithTop ℝ) < r)
      change (W pts r i).Pairwise _ at hsort
      rw [← List.take_append_drop 4 (W pts r i)] at hj hsort
      rcases List.mem_append.1 hj with hj | hj
      · exact Or.inl hj
      · right
        rw [List.pairwise_append] at hsort
        refine ⟨?_, fun k hk => hsort.2.2 k hk j hj⟩
        have : 0 < ((W pts r i).drop 4).length := List.length_pos_of_mem hj
        rw [List.length_drop] at this
        rw [List.length_take]
        omega
  · intro n xy
    exact ⟨Lemmas.perm_pySort _ _, Lemmas.sorted_pySort _ _⟩
  · exact fun l v hl => hnt l v hl

/-! Three fiducials of four pinholes. -/

noncomputable def exBase : Fin 3 → ℝ × ℝ := ![(0, 0), (100, 0), (0, 100)]
noncomputable def exPat : Fin 4 → ℝ × ℝ := ![(0, 0), (1 / 4, 1 / 4), (1 / 2, -1 / 4), (3 / 4, -3 / 4)]
def exLoc : Fin 3 → ℤ := ![541, 1542, 9543]
noncomputable def exPin (b : Fin 3) (k : Fin 4) : Pin := ⟨exLoc b, k.val + 1, ((exBase b).1 + (exPat k).1, (exBase b).2 + (exPat k).2)⟩
noncomputable def exMetro : List Pin := (List.finRange 3).flatMap fun b => (List.finRange 4).map (exPin b)
noncomputable def exTx : Tx := ⟨id, id⟩
noncomputable def exPts : List (ℝ × ℝ) := (50, 50) :: exMetro.map (·.fp)

theorem mem_exMetro (p : Pin) : p ∈ exMetro ↔ ∃ b k, p = exPin b k := by
  unfold exMetro
  simp only [List.mem_flatMap, List.mem_finRange, true_and, List.mem_map]
  constructor
  · rintro ⟨b, k, h⟩; exact ⟨b, k, h.symm⟩
  · rintro ⟨b, k, h⟩; exact ⟨b, k, h.symm⟩

theorem exLoc_inj : ∀ b b', exLoc b = exLoc b' → b = b' := by decide

theorem dist2_lt (p q : ℝ × ℝ) (c : ℝ) (hc : 0 < c) : dist2 p q < c ↔ (p.1 - q.1) ^ 2 + (p.2 - q.2) ^ 2 < c ^ 2 := by
  unfold dist2
  rw [Real.sqrt_lt' hc]

theorem exPat_x : ∀ k k', (exPat k).1 < (exPat k').1 → k < k' := by
  intro k k' h
  by_contra hn
  fin_cases k <;> fin_cases k' <;> simp [exPat] at h hn <;> norm_num at h

theorem ex_triples : ∀ i j k : Fin 4, i < j → j < k → (i = 0 ∧ j = 1 ∧ k = 2) ∨ (i = 0 ∧ j = 1 ∧ k = 3) ∨
    (i = 0 ∧ j = 2 ∧ k = 3) ∨ (i = 1 ∧ j = 2 ∧ k = 3) := by decide

theorem exPin_x (b : Fin 3) (k k' : Fin 4) (h : (exPin b k).fp.1 < (exPin b k').fp.1) : k < k' := by
  apply exPat_x
  unfold exPin at h
  dsimp only at h
  linarith

theorem descriptor_shift (b u v w : ℝ × ℝ) :
    descriptor (b.1 + u.1, b.2 + u.2) (b.1 + v.1, b.2 + v.2) (b.1 + w.1, b.2 + w.2) = descriptor u v w := by
  unfold descriptor
  simp only [add_sub_add_left_eq_sub]

/-- The last component of a descriptor, squared. -/
theorem descriptor_third (a b c : ℝ × ℝ) : (descriptor a b c).2.2 ^ 2 = (b.1 - a.1) ^ 2 / ((b.1 - a.1) ^ 2 + (b.2 - a.2) ^ 2) := by
  unfold descriptor
  dsimp only
  rw [div_pow, Real.sq_sqrt (by positivity)]

theorem ex_shapes (i j k i' j' k' : Fin 4) (h1 : i < j) (h2 : j < k) (h3 : i' < j') (h4 : j' < k')
    (h : descriptor (exPat i) (exPat j) (exPat k) = descriptor (exPat i') (exPat j') (exPat k')) : i = i' ∧ j = j' ∧ k = k' := by
  have h5 := congrArg (fun d : ℝ × ℝ × ℝ => d.2.2 ^ 2) h
  rw [descriptor_third, descriptor_third] at h5
  have h6 := congrArg (fun d : ℝ × ℝ × ℝ => d.2.1) h
  unfold descriptor at h6
  rcases ex_triples i j k h1 h2 with ⟨rfl, rfl, rfl⟩ | ⟨rfl, rfl, rfl⟩ | ⟨rfl, rfl, rfl⟩ | ⟨rfl, rfl, rfl⟩ <;>
  rcases ex_triples i' j' k' h3 h4 with ⟨rfl, rfl, rfl⟩ | ⟨rfl, rfl, rfl⟩ | ⟨rfl, rfl, rfl⟩ | ⟨rfl, rfl, rfl⟩ <;>
  first
  | exact ⟨rfl, rfl, rfl⟩
  | (exfalso; clear h6; simp [exPat] at h5; norm_num at h5; done)
  | (exfalso; clear h5; simp [exPat] at h6; norm_num at h6; done)
  | (exfalso; clear h5; simp [exPat] at h6; norm_num at h6; exact absurd h6 (ne_of_lt (by positivity)))

theorem ex_exact : Exact exMetro exTx (radius exTx (3 / 2)) exPts := by
  have hr : radius exTx (3 / 2) = ((3 / 2 : ℝ) : WithTop ℝ) := by
    unfold radius exTx dist2
    norm_num
  have hpix : ∀ b k, pix exTx (exPin b k) = ((exBase b).1 + (exPat k).1, (exBase b).2 + (exPat k).2) := fun _ _ => rfl
  have hx : ∀ b k, -1 < (exPat k).1 ∧ (exPat k).1 < 1 ∧ -1 < (exPat k).2 ∧ (exPat k).2 < 1 ∧ (exBase b).1 * (exBase b).2 = 0 := by
    intro b k
    fin_cases b <;> fin_cases k <;> simp [exPat, exBase] <;> norm_num
  have hmapfp : exMetro.map (pix exTx) = exMetro.map (·.fp) := rfl
  have hinj : ∀ b k b' k', pix exTx (exPin b k) = pix exTx (exPin b' k') → b = b' ∧ k = k' := by
    intro b k b' k' h
    rw [hpix, hpix, Prod.mk.injEq] at h
    obtain ⟨g1, g2⟩ := h
    fin_cases b <;> fin_cases k <;> fin_cases b' <;> fin_cases k' <;> first
      | exact ⟨rfl, rfl⟩
      | (exfalso; norm_num [exPat, exBase] at g1; done)
      | (exfalso; norm_num [exPat, exBase] at g2; done)
  have hnd : (exMetro.map (pix exTx)).Nodup := by
    unfold exMetro
    rw [List.map_flatMap, List.nodup_flatMap]
    constructor
    · intro b _
      rw [List.map_map, List.nodup_map_iff]
      · exact List.nodup_finRange 4
      · intro k k' h
        exact (hinj b k b k' h).2
    · refine (List.nodup_finRange 3).imp ?_
      intro b b' hb x h1 h2
      dsimp only at h1 h2
      rw [List.map_map, List.mem_map] at h1 h2
      obtain ⟨k, -, rfl⟩ := h1
      obtain ⟨k', -, h2⟩ := h2
      exact hb (hinj b' k' b k h2).1.symm
  have h50 : ∀ b k, 9 / 4 ≤ ((exBase b).1 + (exPat k).1 - 50) ^ 2 + ((exBase b).2 + (exPat k).2 - 50) ^ 2 := by
    intro b k
    fin_cases b <;> fin_cases k <;> simp [exPat, exBase] <;> norm_num
  have hnot : ((50, 50) : ℝ × ℝ) ∉ exMetro.map (pix exTx) := by
    rw [List.mem_map]
    rintro ⟨p, hp, e⟩
    obtain ⟨b, k, rfl⟩ := (mem_exMetro p).1 hp
    have := h50 b k
    rw [hpix, Prod.mk.injEq] at e
    rw [e.1, e.2] at this
    norm_num at this
  have hother : ∀ x ∈ exPts, x ∉ exMetro.map (pix exTx) → x = (50, 50) := by
    intro x hx hn
    unfold exPts at hx
    rcases List.mem_cons.1 hx with h | h
    · exact h
    · exact absurd h hn
  have hlt : ∀ p q : ℝ × ℝ, ((dist2 p q : ℝ) : WithTop ℝ) < radius exTx (3 / 2) ↔ (p.1 - q.1) ^ 2 + (p.2 - q.2) ^ 2 < 9 / 4 := by
    intro p q
    rw [hr, WithTop.coe_lt_coe, dist2_lt _ _ _ (by norm_num)]
    norm_num
  constructor
  · exact hnd
  · unfold exPts
    rw [List.nodup_cons]
    exact ⟨hnot, hnd⟩
  · intro p hp
    exact List.mem_cons_of_mem _ (List.mem_map_of_mem hp)
  · intro p hp
    obtain ⟨b, k, rfl⟩ := (mem_exMetro p).1 hp
    fin_cases b <;> rfl
  · intro p hp q hq hl
    obtain ⟨b, k, rfl⟩ := (mem_exMetro p).1 hp
    obtain ⟨b', k', rfl⟩ := (mem_exMetro q).1 hq
    have := exLoc_inj b' b hl
    subst this
    rw [hlt, hpix, hpix]
    simp only [add_sub_add_left_eq_sub]
    fin_cases k <;> fin_cases k' <;> simp [exPat] <;> norm_num
  · intro p hp q hq hl
    obtain ⟨b, k, rfl⟩ := (mem_exMetro p).1 hp
    obtain ⟨b', k', rfl⟩ := (mem_exMetro q).1 hq
    rw [hlt, hpix, hpix, not_lt]
    obtain ⟨a1, a2, a3, a4, -⟩ := hx b k
    obtain ⟨c1, c2, c3, c4, -⟩ := hx b' k'
    have hb : b' ≠ b := fun e => hl (by rw [e]; rfl)
    dsimp only
    fin_cases b <;> fin_cases b' <;> first
      | exact absurd rfl hb
      | (simp [exBase]; nlinarith)
  · intro x hx hn
    obtain rfl := hother x hx hn
    constructor
    · intro p hp
      obtain ⟨b, k, rfl⟩ := (mem_exMetro p).1 hp
      rw [hlt, hpix, not_lt]
      exact h50 b k
    · intro l hln hl
      have hall : ∀ y ∈ l, y = (50, 50) := by
        intro y hy
        obtain ⟨q1, q2⟩ := hl y hy
        by_cases hm : y ∈ exMetro.map (pix exTx)
        · obtain ⟨p, hp, rfl⟩ := List.mem_map.1 hm
          obtain ⟨b, k, rfl⟩ := (mem_exMetro p).1 hp
          rw [hlt, hpix] at q2
          have := h50 b k
          dsimp only at q2
          nlinarith
        · exact hother y q1 hm
      have : l.length ≤ [((50, 50) : ℝ × ℝ)].length := by
        apply List.Subperm.length_le
        apply List.Nodup.subperm hln
        intro y hy
        rw [hall y hy]; simp
      simp at this
      omega
  · intro p hp q hq hl hid
    obtain ⟨b, k, rfl⟩ := (mem_exMetro p).1 hp
    obtain ⟨b', k', rfl⟩ := (mem_exMetro q).1 hq
    have := exLoc_inj b' b hl
    subst this
    have hk : k' = k := by
      unfold exPin at hid
      dsimp only at hid
      exact Fin.ext (by omega)
    rw [hk]
  · intro p hp
    obtain ⟨b, k, rfl⟩ := (mem_exMetro p).1 hp
    show 0 ≤ exLoc b
    fin_cases b <;> decide
  · intro p hp q hq hl hxx
    obtain ⟨b, k, rfl⟩ := (mem_exMetro p).1 hp
    obtain ⟨b', k', rfl⟩ := (mem_exMetro q).1 hq
    have := exLoc_inj b' b hl
    subst this
    rw [hpix, hpix] at hxx
    dsimp only at hxx
    rcases lt_trichotomy k k' with h | h | h
    · exfalso
      fin_cases k <;> fin_cases k' <;> simp [exPat] at hxx h <;> norm_num at hxx
    · rw [h]
    · exfalso
      fin_cases k <;> fin_cases k' <;> simp [exPat] at hxx h <;> norm_num at hxx
  · intro a ha b hb c hc a' ha' b' hb' c' hc' l1 l2 l3 l4 l5 o1 o2 o3 o4 hd
    obtain ⟨f, i, rfl⟩ := (mem_exMetro a).1 ha
    obtain ⟨f1, j, rfl⟩ := (mem_exMetro b).1 hb
    obtain ⟨f2, k, rfl⟩ := (mem_exMetro c).1 hc
    obtain ⟨f3, i', rfl⟩ := (mem_exMetro a').1 ha'
    obtain ⟨f4, j', rfl⟩ := (mem_exMetro b').1 hb'
    obtain ⟨f5, k', rfl⟩ := (mem_exMetro c').1 hc'
    obtain rfl := exLoc_inj f1 f l1
    obtain rfl := exLoc_inj f2 f1 l2
    obtain rfl := exLoc_inj f3 f2 l3
    obtain rfl := exLoc_inj f4 f3 l4
    obtain rfl := exLoc_inj f5 f4 l5
    rw [hpix, hpix, hpix, hpix, hpix, hpix, descriptor_shift, descriptor_shift] at hd
    obtain ⟨rfl, rfl, rfl⟩ := ex_shapes i j k i' j' k' (exPin_x _ _ _ o1) (exPin_x _ _ _ o2) (exPin_x _ _ _ o3)
      (exPin_x _ _ _ o4) hd
    exact ⟨rfl, rfl, rfl⟩
  · rintro l hl ⟨a, b, c, hne, hline⟩
    have hpt : ∀ f : Fin 3, ∃ k, a + b * ((exBase f).1 + (exPat k).1) + c * ((exBase f).2 + (exPat k).2) = 0 := by
      intro f
      obtain ⟨q, hq, hloc, hm⟩ := hl (exPin f 0) ((mem_exMetro _).2 ⟨f, 0, rfl⟩)
      obtain ⟨f', k, rfl⟩ := (mem_exMetro q).1 hq
      obtain rfl := exLoc_inj f' f hloc
      exact ⟨k, hline _ hm⟩
    obtain ⟨k0, e0⟩ := hpt 0
    obtain ⟨k1, e1⟩ := hpt 1
    obtain ⟨k2, e2⟩ := hpt 2
    obtain ⟨a1, a2, a3, a4, -⟩ := hx 0 k0
    obtain ⟨b1, b2, b3, b4, -⟩ := hx 0 k1
    obtain ⟨c1, c2, c3, c4, -⟩ := hx 0 k2
    simp only [exBase, Matrix.cons_val_zero, Matrix.cons_val_one, Matrix.cons_val_two, Matrix.head_cons, Matrix.tail_cons] at e0 e1 e2
    generalize exPat k0 = u0 at *
    generalize exPat k1 = u1 at *
    generalize exPat k2 = u2 at *
    simp at e0 e1 e2
    have d1 : b * (100 + u1.1 - u0.1) + c * (u1.2 - u0.2) = 0 := by linarith
    have d2 : b * (u2.1 - u0.1) + c * (100 + u2.2 - u0.2) = 0 := by linarith
    have hdet : (100 + u1.1 - u0.1) * (100 + u2.2 - u0.2) - (u2.1 - u0.1) * (u1.2 - u0.2) > 0 := by
      nlinarith [mul_pos (show (0:ℝ) < 2 + (u1.1 - u0.1) by linarith) (show (0:ℝ) < 2 + (u2.2 - u0.2) by linarith),
        mul_pos (show (0:ℝ) < 2 - (u2.1 - u0.1) by linarith) (show (0:ℝ) < 2 - (u1.2 - u0.2) by linarith),
        mul_pos (show (0:ℝ) < 2 + (u2.1 - u0.1) by linarith) (show (0:ℝ) < 2 + (u1.2 - u0.2) by linarith),
        mul_pos (show (0:ℝ) < 2 - (u2.1 - u0.1) by linarith) (show (0:ℝ) < 2 + (u1.2 - u0.2) by linarith)]
    have hb : b = 0 := by
      have : b * ((100 + u1.1 - u0.1) * (100 + u2.2 - u0.2) - (u2.1 - u0.1) * (u1.2 - u0.2)) = 0 := by
        linear_combination (100 + u2.2 - u0.2) * d1 - (u1.2 - u0.2) * d2
      exact (mul_eq_zero.1 this).resolve_right hdet.ne'
    have hc : c = 0 := by
      have : c * ((100 + u1.1 - u0.1) * (100 + u2.2 - u0.2) - (u2.1 - u0.1) * (u1.2 - u0.2)) = 0 := by
        linear_combination (100 + u1.1 - u0.1) * d2 - (u2.1 - u0.1) * d1
      exact (mul_eq_zero.1 this).resolve_right hdet.ne'
    have ha : a = 0 := by rw [hb, hc] at e0; linarith
    exact hne (by rw [ha, hb, hc])

end Fid

/-- C35 (finding): a call that labels all twelve pinholes of three fiducials in a new process
raises LinAlgError after a call with another (unusable) transform. -/
theorem C35_history_matters : ∃ (env : Env) (metro : List Pin) (a b : Call) (out : List Label),
    Fid.Good env ∧ (findfiducials env metro none a).1 = .ok out ∧ (out.filter fun l => 0 < l.pin).length = 12 ∧
    (findfiducials env metro (after env metro [b]) a).1 = .error .linAlgError := by
  obtain ⟨env, hg⟩ := good_exists
  obtain ⟨out, h1, h2, h3, h4⟩ := C35_exact env hg exMetro exTx (3 / 2) exPts ex_exact [] (by simp)
  refine ⟨env, exMetro, ⟨exPts, .ok exTx, 3 / 2⟩, ⟨[], .ok ⟨id, fun _ => (0, 0)⟩, 3 / 2⟩, out, hg, h1, ?_,
    C35_stale env hg exMetro _ _ rfl ⟨0, 1, 0, by simp, by simp⟩ [] _ exTx rfl⟩
  have hout : out = ⟨-1, -1, -1, 0⟩ :: exMetro.map fun p => (⟨p.loc, p.loc / 1000, p.loc % 1000, p.id⟩ : Label) := by
    apply List.ext_getElem?
    intro t
    cases t with
    | zero =>
      rw [h4 0 (50, 50) rfl]
      · rfl
      · intro p hp e
        exact (List.nodup_cons.1 ex_exact.ptsNodup).1 (e ▸ List.mem_map.2 ⟨p, hp, rfl⟩)
    | succ t =>
      by_cases ht : t < exMetro.length
      · rw [h3 (t + 1) exMetro[t] (List.getElem_mem _) (by
          unfold exPts
          rw [List.getElem?_cons_succ, List.getElem?_map, List.getElem?_eq_getElem ht]
          rfl), List.getElem?_cons_succ, List.getElem?_map, List.getElem?_eq_getElem ht]
        rfl
      · rw [List.getElem?_eq_none (by rw [h2]; unfold exPts; rw [List.length_cons, List.length_map]; omega),
          List.getElem?_eq_none (by rw [List.length_cons, List.length_map]; omega)]
  rw [hout]
  rfl

end Verif.Props
