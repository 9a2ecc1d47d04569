import Verif.Model.FitLoop
import Verif.Lemmas.Argmax
import Verif.Lemmas.Pos2ptl
import Verif.Props.MatchPositioners
import Verif.Spec.Angle
import Mathlib.Topology.Order.Compact
import Mathlib.Topology.Algebra.Order.Group
import Mathlib.Topology.Instances.Real.Lemmas
import Mathlib.Topology.Algebra.Monoid
import Mathlib.Topology.Algebra.GroupWithZero

/-!
# C71: the fit of positioner parameters
-/

namespace Verif.Props.FitLoop
open Verif.Py Verif.Model.FitLoop Verif.Model.Fitter Verif.Props
open Verif.Model.MatchPositioners (median)
open Verif.Spec (SameAngle)

/-! ### What the fit should be -/

/-- Position of the fibre when the arms are at angles `T`, `P` (degrees). -/
noncomputable def fibre (v : Vals) (T P : ℝ) : ℝ × ℝ :=
  (v kOX + (v kR1 * Real.cos (T * Real.pi / 180) + v kR2 * Real.cos ((T + P) * Real.pi / 180)),
   v kOY + (v kR1 * Real.sin (T * Real.pi / 180) + v kR2 * Real.sin ((T + P) * Real.pi / 180)))

/-- Drift of the internal angles in sequence `s`: the EPSILON values, for the sequences in the set. -/
noncomputable def drift (S : List ℕ) (v : Vals) (s : ℕ) : ℝ × ℝ := if s ∈ S then (v (epsT s), v (epsP s)) else (0, 0)

/-- Where a point is expected. -/
noncomputable def predicted (mode : Mode) (S : List ℕ) (v : Vals) (q : Pt) : ℝ × ℝ :=
  let m := if mode = .dynamic then (v kST * q.dt, v kSP * q.dp) else (0, 0)
  fibre v (q.t + m.1 + (v kOT + (drift S v q.seq).1)) (q.p + m.2 + (v kOP + (drift S v q.seq).2))

/-- Distance between expected and measured position. -/
noncomputable def residual (mode : Mode) (S : List ℕ) (v : Vals) (q : Pt) : ℝ :=
  Real.sqrt (((predicted mode S v q).1 - q.x) ^ 2 + ((predicted mode S v q).2 - q.y) ^ 2)

/-- Weighted sum of squares. -/
noncomputable def weighted (mode : Mode) (S : List ℕ) (l : List Pt) (v : Vals) : ℝ :=
  (l.map fun q => (((predicted mode S v q).1 - q.x) / q.xerr) ^ 2 + (((predicted mode S v q).2 - q.y) / q.yerr) ^ 2).sum

/-- Allowed values: nominal for fixed parameters, within the bounds for free ones. -/
def Allowed (e : Env) (lo hi : Vals) (v : Vals) : Prop :=
  (∀ k, k ∉ e.free → v k = e.nom k) ∧ ∀ k ∈ e.free, lo k ≤ v k ∧ v k ≤ hi k

/-- `v` is a best fit to the points `l`. -/
def BestFit (e : Env) (lo hi : Vals) (l : List Pt) (v : Vals) : Prop :=
  Allowed e lo hi v ∧ ∀ u, Allowed e lo hi u → weighted e.mode e.seqs l v ≤ weighted e.mode e.seqs l u

/-- The optimiser finds minima within the bounds: what it returns has values within the bounds which no others beat, whenever the function
has a minimum there. -/
def Minimises (free : List PyStr) (lo hi : Vals) (m : (Vals → ℝ) → Vals) : Prop :=
  ∀ f : Vals → ℝ, (∃ p, (∀ k ∈ free, lo k ≤ p k ∧ p k ≤ hi k) ∧ ∀ q, (∀ k ∈ free, lo k ≤ q k ∧ q k ≤ hi k) → f p ≤ f q) →
    (∀ k ∈ free, lo k ≤ m f k ∧ m f k ≤ hi k) ∧ ∀ q, (∀ k ∈ free, lo k ≤ q k ∧ q k ≤ hi k) → f (m f) ≤ f q

theorem tp2xy_eq (v : Vals) (T P : ℝ) : (Model.Xy2tp.tp2xy (T, P) (v kR1) (v kR2)).1 + v kOX = (fibre v T P).1 ∧
    (Model.Xy2tp.tp2xy (T, P) (v kR1) (v kR2)).2 + v kOY = (fibre v T P).2 := by
  have e : radians T + radians P = (T + P) * Real.pi / 180 := by unfold radians; ring
  have e' : radians T = T * Real.pi / 180 := by unfold radians; ring
  unfold Model.Xy2tp.tp2xy fibre
  dsimp only
  rw [e, e']
  constructor <;> ring

theorem expected_eq (mode : Mode) (S : List ℕ) (v : Vals) (q : Pt) : expected mode S v q = predicted mode S v q := by
  have key : ∀ a b a' b', a = a' → b = b' → (((Model.Xy2tp.tp2xy (a, b) (v kR1) (v kR2)).1 + v kOX,
      (Model.Xy2tp.tp2xy (a, b) (v kR1) (v kR2)).2 + v kOY) : ℝ × ℝ) = fibre v a' b' := by
    rintro a b _ _ rfl rfl
    exact Prod.ext (tp2xy_eq v a b).1 (tp2xy_eq v a b).2
  unfold expected predicted offsets drift
  cases mode
  · dsimp only
    simp only [reduceCtorEq, if_false]
    apply key <;> split_ifs <;> simp
  · dsimp only
    simp only [if_true]
    apply key <;> split_ifs <;> simp <;> ring

theorem chi2_eq (mode : Mode) (S : List ℕ) (l : List Pt) (v : Vals) : chi2 mode S l v = weighted mode S l v := by
  unfold chi2 weighted
  simp only [expected_eq]

theorem distance_eq (mode : Mode) (S : List ℕ) (v : Vals) (q : Pt) : distance mode S v q = residual mode S v q := by
  unfold distance residual
  rw [expected_eq]

theorem fibre_cont {X : Type*} [TopologicalSpace X] {v : X → Vals} {T P : X → ℝ} (h1 : Continuous fun w => v w kOX)
    (h2 : Continuous fun w => v w kOY) (h3 : Continuous fun w => v w kR1) (h4 : Continuous fun w => v w kR2)
    (hT : Continuous T) (hP : Continuous P) : Continuous fun w => fibre (v w) (T w) (P w) := by
  unfold fibre
  have a1 := (hT.mul continuous_const).div_const (180 : ℝ) (f := fun w => T w * Real.pi)
  have a2 := ((hT.add hP).mul continuous_const).div_const (180 : ℝ) (f := fun w => (T w + P w) * Real.pi)
  exact (h1.add ((h3.mul (Real.continuous_cos.comp a1)).add (h4.mul (Real.continuous_cos.comp a2)))).prodMk
    (h2.add ((h3.mul (Real.continuous_sin.comp a1)).add (h4.mul (Real.continuous_sin.comp a2))))

/-- There is always a best fit. -/
theorem best_exists (mode : Mode) (S : List ℕ) (nom lo hi : Vals) (free : List PyStr) (hb : ∀ k ∈ free, lo k ≤ hi k) (l : List Pt) :
    ∃ p : Vals, (∀ k ∈ free, lo k ≤ p k ∧ p k ≤ hi k) ∧ ∀ q : Vals, (∀ k ∈ free, lo k ≤ q k ∧ q k ≤ hi k) →
      weighted mode S l (withFree nom free p) ≤ weighted mode S l (withFree nom free q) := by
  classical
  obtain ⟨ext, ex1, ex2⟩ : ∃ ext : ({k // k ∈ free} → ℝ) → Vals, (∀ w k (h : k ∈ free), ext w k = w ⟨k, h⟩) ∧
      ∀ w k, k ∉ free → ext w k = nom k :=
    ⟨fun w k => if h : k ∈ free then w ⟨k, h⟩ else nom k, fun w k h => dif_pos h, fun w k h => dif_neg h⟩
  have hext : ∀ q : Vals, ext (fun k => q k.1) = withFree nom free q := by
    intro q; funext k; unfold withFree; split_ifs with h
    · exact ex1 _ _ h
    · exact ex2 _ _ h
  have hcont : ∀ k, Continuous fun w => ext w k := by
    intro k
    by_cases h : k ∈ free
    · simp only [ex1 _ _ h]; exact continuous_apply _
    · simp only [ex2 _ _ h]; exact continuous_const
  have hpred : ∀ q, Continuous fun w => predicted mode S (ext w) q := by
    intro q
    have hm : Continuous fun w => (if mode = .dynamic then (ext w kST * q.dt, ext w kSP * q.dp) else (0, 0) : ℝ × ℝ) := by
      split_ifs
      · exact ((hcont _).mul continuous_const).prodMk ((hcont _).mul continuous_const)
      · exact continuous_const
    have hd : Continuous fun w => drift S (ext w) q.seq := by
      unfold drift
      split_ifs
      · exact (hcont _).prodMk (hcont _)
      · exact continuous_const
    exact fibre_cont (hcont _) (hcont _) (hcont _) (hcont _)
      ((continuous_const.add (continuous_fst.comp hm)).add ((hcont _).add (continuous_fst.comp hd)))
      ((continuous_const.add (continuous_snd.comp hm)).add ((hcont _).add (continuous_snd.comp hd)))
  have hw : Continuous fun w => weighted mode S l (ext w) := by
    unfold weighted
    induction l with
    | nil => simp only [List.map_nil, List.sum_nil]; exact continuous_const
    | cons q l ih =>
      simp only [List.map_cons, List.sum_cons]
      have := hpred q
      refine Continuous.add ?_ ih
      have h1 : Continuous fun w => (predicted mode S (ext w) q).1 := continuous_fst.comp this
      have h2 : Continuous fun w => (predicted mode S (ext w) q).2 := continuous_snd.comp this
      exact (((h1.sub continuous_const).div_const _).pow 2).add (((h2.sub continuous_const).div_const _).pow 2)
  have hcomp : IsCompact (Set.pi Set.univ fun k : {k // k ∈ free} => Set.Icc (lo k.1) (hi k.1)) :=
    isCompact_univ_pi fun k => isCompact_Icc
  obtain ⟨w, hwm, hmin⟩ := hcomp.exists_isMinOn (f := fun w => weighted mode S l (ext w))
    ⟨fun k => lo k.1, fun k _ => ⟨le_rfl, hb _ k.2⟩⟩ hw.continuousOn
  refine ⟨ext w, ?_, ?_⟩
  · intro k hk
    have := hwm ⟨k, hk⟩ (Set.mem_univ _)
    rw [ex1 _ _ hk]
    exact this
  · intro q hq
    have h1 : withFree nom free (ext w) = ext w := by
      funext k; unfold withFree; split_ifs with h
      · rfl
      · exact (ex2 _ _ h).symm
    have hmem : (fun k : {k // k ∈ free} => q k.1) ∈ Set.pi Set.univ fun k : {k // k ∈ free} => Set.Icc (lo k.1) (hi k.1) :=
      fun k _ => hq _ k.2
    have k := isMinOn_iff.1 hmin _ hmem
    rw [h1, ← hext q]
    exact k

/-- The parameters found in one pass are a best fit to the points of that pass. -/
theorem best_spec {e : Env} {lo hi : Vals} (hb : ∀ k ∈ e.free, lo k ≤ hi k) (hm : Minimises e.free lo hi e.minimise) (l : List Pt) :
    BestFit e lo hi l (e.best l) := by
  have hx : ∃ p : Vals, (∀ k ∈ e.free, lo k ≤ p k ∧ p k ≤ hi k) ∧ ∀ q : Vals, (∀ k ∈ e.free, lo k ≤ q k ∧ q k ≤ hi k) →
      chi2 e.mode e.seqs l (withFree e.nom e.free p) ≤ chi2 e.mode e.seqs l (withFree e.nom e.free q) := by
    simp only [chi2_eq]
    exact best_exists e.mode e.seqs e.nom lo hi e.free hb l
  obtain ⟨h1, h2⟩ := hm _ hx
  have hin : ∀ p : Vals, (∀ k ∈ e.free, lo k ≤ p k ∧ p k ≤ hi k) → Allowed e lo hi (withFree e.nom e.free p) := by
    intro p hp
    refine ⟨fun k hk => by simp [withFree, hk], fun k hk => ?_⟩
    simp only [withFree, if_pos hk]
    exact hp k hk
  refine ⟨hin _ h1, ?_⟩
  intro u hu
  have hu' : withFree e.nom e.free u = u := by
    funext k
    unfold withFree
    split_ifs with hk
    · rfl
    · exact (hu.1 k hk).symm
  have := h2 u hu.2
  rw [chi2_eq, chi2_eq, hu'] at this
  exact this

/-- Discarding one point after another: each has the largest residual of the points still there, for a best fit to these, and this
residual is at least 0.2 mm and at least 2.1 times the median residual. -/
inductive Discards (e : Env) (lo hi : Vals) : List Pt → List Pt → ℕ → Prop
  | none (l : List Pt) : Discards e lo hi l l 0
  | one {l a b : List Pt} {q : Pt} {l' : List Pt} {k : ℕ} (v : Vals) (med : ℝ) (hl : l = a ++ q :: b) (hv : BestFit e lo hi l v)
      (hmed : IsMedian (l.map (residual e.mode e.seqs v)) med)
      (hmax : ∀ q' ∈ l, residual e.mode e.seqs v q' ≤ residual e.mode e.seqs v q)
      (h1 : 1 / 5 ≤ residual e.mode e.seqs v q) (h2 : 2.1 * med ≤ residual e.mode e.seqs v q)
      (hr : Discards e lo hi (a ++ b) l' k) : Discards e lo hi l l' (k + 1)

/-- No point is far off: the largest residual is below 0.2 mm or below 2.1 times the median. -/
def Clean (e : Env) (v : Vals) (l : List Pt) : Prop :=
  (∀ q ∈ l, residual e.mode e.seqs v q < 1 / 5) ∨
  ∃ med, IsMedian (l.map (residual e.mode e.seqs v)) med ∧ ∀ q ∈ l, residual e.mode e.seqs v q < 2.1 * med

/-- Outcome of the loop with `k` passes left. -/
theorem loop_spec {e : Env} {lo hi : Vals} (hb : ∀ k ∈ e.free, lo k ≤ hi k) (hm : Minimises e.free lo hi e.minimise) (hr : e.reject = true)
    (k : ℕ) (last : Vals) (l : List Pt) (v : Vals) (l' : List Pt) (h : loop e k last l = .ok (v, l')) :
    ∃ n ≤ k, Discards e lo hi l l' n ∧ (n ≠ 0 → e.free.length ≤ l'.length) ∧
      (n < k → BestFit e lo hi l' v ∧ Clean e v l' ∧ l' ≠ []) ∧
      (n = k → (k = 0 ∧ v = last) ∨ ∃ m, Discards e lo hi l m (k - 1) ∧ m.length = l'.length + 1 ∧ BestFit e lo hi m v) := by
  induction k generalizing last l with
  | zero =>
    simp only [loop, Except.ok.injEq, Prod.mk.injEq] at h
    obtain ⟨rfl, rfl⟩ := h
    exact ⟨0, le_rfl, .none l, by simp, by simp, fun _ => Or.inl ⟨rfl, rfl⟩⟩
  | succ k ih =>
    unfold loop at h
    simp only [hr, Bool.not_true, Bool.false_eq_true, if_false] at h
    have hdist : l.map (distance e.mode e.seqs (e.best l)) = l.map (residual e.mode e.seqs (e.best l)) := by
      exact List.map_congr_left fun q _ => distance_eq ..
    rw [hdist] at h
    have hbest := best_spec hb hm l
    have hmed : IsMedian (l.map (residual e.mode e.seqs (e.best l))) (median (l.map (residual e.mode e.seqs (e.best l)))) :=
      MatchPos.median_spec _
    by_cases hl : l.length = 0
    · rw [if_pos hl] at h; cases h
    rw [if_neg hl] at h
    have hne : l.map (residual e.mode e.seqs (e.best l)) ≠ [] := by
      intro h0; apply hl; simpa using congrArg List.length h0
    obtain ⟨hw1, hw2, -⟩ := Lemmas.argmaxReal_spec _ hne
    generalize hwdef : argmaxReal (l.map (residual e.mode e.seqs (e.best l))) = w at h hw1 hw2
    have hw : w < l.length := by simpa using hw1
    have hget : (l.map (residual e.mode e.seqs (e.best l))).getD w 0 = residual e.mode e.seqs (e.best l) l[w] := by
      rw [List.getD_eq_getElem?_getD, List.getElem?_eq_getElem hw1]; simp
    rw [hget] at h hw2
    have hmax : ∀ q' ∈ l, residual e.mode e.seqs (e.best l) q' ≤ residual e.mode e.seqs (e.best l) l[w] :=
      fun q' hq' => hw2 _ (List.mem_map.2 ⟨q', hq', rfl⟩)
    split_ifs at h with h1 h2
    · simp only [Except.ok.injEq, Prod.mk.injEq] at h
      obtain ⟨rfl, rfl⟩ := h
      refine ⟨0, Nat.zero_le _, .none l, by simp, fun _ => ⟨hbest, ?_, ?_⟩, by omega⟩
      · rcases h1 with h1 | h1
        · left; intro q hq; have := hmax q hq; norm_num at h1 ⊢; linarith
        · exact Or.inr ⟨_, hmed, fun q hq => (hmax q hq).trans_lt h1⟩
      · intro h0; apply hl; rw [h0]; rfl
    · push Not at h1
      have herase : l.eraseIdx w = l.take w ++ l.drop (w + 1) := List.eraseIdx_eq_take_drop_succ ..
      have hsplit : l = l.take w ++ l[w] :: l.drop (w + 1) := by simp
      obtain ⟨n, hn, hd, hf, hc, ht⟩ := ih _ _ h
      have hlen : (l.eraseIdx w).length + 1 = l.length := by rw [List.length_eraseIdx_of_lt hw]; omega
      rw [herase] at hd
      refine ⟨n + 1, by omega, .one (e.best l) _ hsplit hbest hmed hmax (by have := h1.1; norm_num at this ⊢; exact this) h1.2 hd, ?_, ?_, ?_⟩
      · intro _
        by_cases h0 : n = 0
        · subst h0
          cases hd
          rw [← herase]
          omega
        · exact hf h0
      · intro hlt
        exact hc (by omega)
      · intro heq
        right
        rcases ht (by omega) with ⟨h0, rfl⟩ | ⟨m, hm1, hm2, hm3⟩
        · subst h0
          have hn0 : n = 0 := by omega
          subst hn0
          cases hd
          exact ⟨l, .none l, by rw [← herase]; omega, hbest⟩
        · rw [herase] at hm1
          by_cases hk0 : k = 0
          · exfalso
            subst hk0
            have hn0 : n = 0 := by omega
            subst hn0
            cases hd
            cases hm1
            omega
          · refine ⟨m, ?_, hm2, hm3⟩
            have : k + 1 - 1 = (k - 1) + 1 := by omega
            rw [this]
            exact .one (e.best l) _ hsplit hbest hmed hmax (by have := h1.1; norm_num at this ⊢; exact this) h1.2 hm1

theorem sumsq_eq (mode : Mode) (S : List ℕ) (v : Vals) (l : List Pt) :
    sumsq mode S v l = (l.map fun q => residual mode S v q ^ 2).sum := by
  unfold sumsq
  congr 1
  apply List.map_congr_left
  intro q _
  unfold residual
  rw [Real.sq_sqrt (by positivity), expected_eq]

theorem Discards.length {e : Env} {lo hi : Vals} {l l' : List Pt} {k : ℕ} (h : Discards e lo hi l l' k) :
    l'.length + k = l.length ∧ l'.Sublist l := by
  induction h with
  | none l => exact ⟨rfl, List.Sublist.refl _⟩
  | @one l a b q l' k v med hl hv hmed hmax h1 h2 hr ih =>
    subst hl
    refine ⟨?_, ih.2.trans ?_⟩
    · have := ih.1
      simp only [List.length_append, List.length_cons] at this ⊢
      omega
    · exact (List.Sublist.refl a).append (List.sublist_cons_self q b)

theorem fitLoop_ok {e : Env} {l : List Pt} {r : Fit} (h : fitLoop e l = .ok r) :
    (e.mode = .dynamic → kST ∈ e.free ∧ kSP ∈ e.free) ∧ ∃ used, loop e 20 e.nom l = .ok (r.vals, used) ∧ r.npts = used.length ∧
      r.rms = Real.sqrt ((used.map fun q => residual e.mode e.seqs r.vals q ^ 2).sum / l.length) := by
  unfold fitLoop at h
  split_ifs at h with h1
  obtain ⟨⟨v, used⟩, hl, h⟩ := Lemmas.bind_ok h
  simp only [pure, Except.pure, Except.ok.injEq] at h
  subst h
  refine ⟨fun hd => by by_contra hn; exact h1 ⟨hd, hn⟩, used, hl, rfl, ?_⟩
  simp only [sumsq_eq]

/-! ### Theorems -/

/-- **C71** With outlier rejection: the points used are the given ones without at most twenty. Each point left out was the farthest
from its expected position, by at least 0.2 mm and 2.1 times the median, in a best fit to the points still there.
With fewer than twenty left out, the parameters are a best fit to the points used and none of these is far
off. When twenty were left out, they are a best fit to the points used and one more, the last one left out. -/
theorem C71_outliers (e : Env) (lo hi : Vals) (hb : ∀ k ∈ e.free, lo k ≤ hi k) (hm : Minimises e.free lo hi e.minimise)
    (hr : e.reject = true) (l : List Pt) (r : Fit) (h : fitLoop e l = .ok r) :
    ∃ used n, Discards e lo hi l used n ∧ n ≤ 20 ∧ used.length = r.npts ∧ r.npts + n = l.length ∧ used.Sublist l ∧
      (n ≠ 0 → e.free.length ≤ r.npts) ∧
      (n < 20 → BestFit e lo hi used r.vals ∧ Clean e r.vals used ∧ used ≠ []) ∧
      (n = 20 → ∃ m, Discards e lo hi l m 19 ∧ m.length = r.npts + 1 ∧ BestFit e lo hi m r.vals) := by
  obtain ⟨-, used, hl, hn, -⟩ := fitLoop_ok h
  obtain ⟨n, h1, h2, h3, h4, h5⟩ := loop_spec hb hm hr 20 _ _ _ _ hl
  refine ⟨used, n, h2, h1, hn.symm, ?_, h2.length.2, ?_, h4, ?_⟩
  · rw [hn]; exact h2.length.1
  · rw [hn]; exact h3
  · intro h20
    rcases h5 h20 with ⟨h0, -⟩ | ⟨m, a, b, c⟩
    · cases h0
    · exact ⟨m, a, by rw [hn]; exact b, c⟩

/-- **C71** Without outlier rejection all points are used. -/
theorem C71_all_used (e : Env) (lo hi : Vals) (hb : ∀ k ∈ e.free, lo k ≤ hi k) (hm : Minimises e.free lo hi e.minimise)
    (hr : e.reject = false) (l : List Pt) (hl : l ≠ []) (hd : e.mode = .dynamic → kST ∈ e.free ∧ kSP ∈ e.free) :
    ∃ r, fitLoop e l = .ok r ∧ r.npts = l.length ∧ BestFit e lo hi l r.vals := by
  have hloop : loop e 20 e.nom l = .ok (e.best l, l) := by
    unfold loop
    rw [if_neg (by intro h; exact hl (List.length_eq_zero_iff.1 h))]
    simp [hr]
  refine ⟨⟨e.best l, Real.sqrt (sumsq e.mode e.seqs (e.best l) l / l.length), l.length⟩, ?_, rfl, best_spec hb hm l⟩
  unfold fitLoop
  rw [if_neg (by rintro ⟨h1, h2⟩; exact h2 (hd h1)), hloop]
  rfl

/-- **C71** (finding) The reported rms divides by the number of points given, not used: it is the rms of the points used times the
square root of the fraction used, so too small as soon as a point is left out (unless all residuals are zero). -/
theorem C71_rms (e : Env) (lo hi : Vals) (hb : ∀ k ∈ e.free, lo k ≤ hi k) (hm : Minimises e.free lo hi e.minimise)
    (hr : e.reject = true) (l : List Pt) (r : Fit) (h : fitLoop e l = .ok r) :
    ∃ used n, Discards e lo hi l used n ∧ used.length = r.npts ∧
      let ss := (used.map fun q => residual e.mode e.seqs r.vals q ^ 2).sum
      0 ≤ r.rms ∧ r.rms ^ 2 * (used.length + n) = ss ∧
      (n = 0 → used = l ∧ r.rms = Real.sqrt (ss / used.length)) ∧
      (0 < n → 0 < ss → r.rms < Real.sqrt (ss / used.length)) := by
  obtain ⟨-, used, hl, hn, hrms⟩ := fitLoop_ok h
  obtain ⟨n, h1, h2, -⟩ := loop_spec hb hm hr 20 _ _ _ _ hl
  refine ⟨used, n, h2, hn.symm, ?_⟩
  intro ss
  have hlen : (l.length : ℝ) = used.length + n := by rw [← h2.length.1]; push_cast; rfl
  have hss : 0 ≤ ss := List.sum_nonneg (by
    intro x hx
    obtain ⟨q, -, rfl⟩ := List.mem_map.1 hx
    positivity)
  have hz : used = [] → ss = 0 := by intro h0; simp [ss, h0]
  refine ⟨by rw [hrms]; positivity, ?_, ?_, ?_⟩
  · rw [hrms, Real.sq_sqrt (by positivity), hlen]
    by_cases h0 : (used.length + n : ℝ) = 0
    · have : used = [] := by
        have h3 : (0 : ℝ) ≤ used.length := by positivity
        have h4 : (0 : ℝ) ≤ n := by positivity
        have h5 : (used.length : ℝ) = 0 := by linarith
        exact List.length_eq_zero_iff.1 (by exact_mod_cast h5)
      show ss / _ * _ = ss
      rw [h0, hz this]; simp
    · show ss / _ * _ = ss
      field_simp
  · intro h0
    subst h0
    cases h2
    exact ⟨rfl, hrms⟩
  · intro h3 h4
    rw [hrms]
    apply Real.sqrt_lt_sqrt (by positivity)
    have hu : (0 : ℝ) < used.length := by
      have : used ≠ [] := fun h0 => by rw [hz h0] at h4; exact lt_irrefl _ h4
      exact_mod_cast List.length_pos_iff.2 this
    have h3' : (0 : ℝ) < n := by exact_mod_cast h3
    show ss / _ < ss / _
    rw [hlen]
    exact div_lt_div_of_pos_left h4 hu (by linarith)

/-- **C71** (finding) When so many points are left out that fewer remain than there are free parameters, the call ends with a `KeyError`
(the flag asked for does not exist) instead of a result flagged as failed; nothing else in the loop raises it. -/
theorem C71_too_few (e : Env) (lo hi : Vals) (hb : ∀ k ∈ e.free, lo k ≤ hi k) (hm : Minimises e.free lo hi e.minimise)
    (hd : e.mode = .dynamic → kST ∈ e.free ∧ kSP ∈ e.free) (l : List Pt) (err : PyErr) (h : fitLoop e l = .error err) :
    (err = .valueError ∧ ∃ n, Discards e lo hi l [] n) ∨
    (err = .keyError ∧ e.reject = true ∧ ∃ m n, n < 20 ∧ Discards e lo hi l m (n + 1) ∧ m.length < e.free.length) := by
  have hl : loop e 20 e.nom l = .error err := by
    unfold fitLoop at h
    rw [if_neg (by rintro ⟨h1, h2⟩; exact h2 (hd h1))] at h
    cases hq : loop e 20 e.nom l with
    | error e' => rw [hq] at h; injection h with h; rw [h]
    | ok v => rw [hq] at h; cases h
  clear h hd
  generalize 20 = k at hl ⊢
  generalize e.nom = last at hl
  induction k generalizing last l with
  | zero => cases hl
  | succ k ih =>
    unfold loop at hl
    by_cases h0 : l.length = 0
    · rw [if_pos h0] at hl
      injection hl with hl
      have : l = [] := List.length_eq_zero_iff.1 h0
      subst this
      exact Or.inl ⟨hl.symm, 0, .none _⟩
    rw [if_neg h0] at hl
    dsimp only at hl
    cases hr : e.reject with
    | false => rw [hr] at hl; simp at hl
    | true =>
      rw [hr] at hl
      simp only [Bool.not_true, Bool.false_eq_true, if_false] at hl
      have hdist : l.map (distance e.mode e.seqs (e.best l)) = l.map (residual e.mode e.seqs (e.best l)) :=
        List.map_congr_left fun q _ => distance_eq ..
      rw [hdist] at hl
      have hbest := best_spec hb hm l
      have hmed : IsMedian (l.map (residual e.mode e.seqs (e.best l))) (median (l.map (residual e.mode e.seqs (e.best l)))) :=
        MatchPos.median_spec _
      have hne : l.map (residual e.mode e.seqs (e.best l)) ≠ [] := by
        intro h1; apply h0; simpa using congrArg List.length h1
      obtain ⟨hw1, hw2, -⟩ := Lemmas.argmaxReal_spec _ hne
      generalize argmaxReal (l.map (residual e.mode e.seqs (e.best l))) = w at hl hw1 hw2
      have hw : w < l.length := by simpa using hw1
      have hget : (l.map (residual e.mode e.seqs (e.best l))).getD w 0 = residual e.mode e.seqs (e.best l) l[w] := by
        rw [List.getD_eq_getElem?_getD, List.getElem?_eq_getElem hw1]; simp
      rw [hget] at hl hw2
      have hmax : ∀ q' ∈ l, residual e.mode e.seqs (e.best l) q' ≤ residual e.mode e.seqs (e.best l) l[w] :=
        fun q' hq' => hw2 _ (List.mem_map.2 ⟨q', hq', rfl⟩)
      have herase : l.eraseIdx w = l.take w ++ l.drop (w + 1) := List.eraseIdx_eq_take_drop_succ ..
      have hsplit : l = l.take w ++ l[w] :: l.drop (w + 1) := by simp
      by_cases h1 : residual e.mode e.seqs (e.best l) l[w] < 0.2 ∨
          residual e.mode e.seqs (e.best l) l[w] < 2.1 * median (l.map (residual e.mode e.seqs (e.best l)))
      · rw [if_pos h1] at hl; cases hl
      rw [if_neg h1] at hl
      push Not at h1
      have step : ∀ m n, Discards e lo hi (l.take w ++ l.drop (w + 1)) m n → Discards e lo hi l m (n + 1) := fun m n hd =>
        .one (e.best l) _ hsplit hbest hmed hmax (by have := h1.1; norm_num at this ⊢; exact this) h1.2 hd
      by_cases h2 : (l.eraseIdx w).length < e.free.length
      · rw [if_pos h2] at hl
        injection hl with hl
        refine Or.inr ⟨hl.symm, rfl, l.eraseIdx w, 0, by omega, ?_, h2⟩
        rw [herase]
        exact step _ _ (.none _)
      · rw [if_neg h2] at hl
        rcases ih _ _ hl with ⟨a, n, b⟩ | ⟨a, -, m, n, b, c, d⟩
        · rw [herase] at b
          exact Or.inl ⟨a, _, step _ _ b⟩
        · rw [herase] at c
          exact Or.inr ⟨a, rfl, m, n + 1, by omega, step _ _ c, d⟩

theorem residual_zero {mode : Mode} {S : List ℕ} {v : Vals} {q : Pt} (hx : q.xerr ≠ 0) (hy : q.yerr ≠ 0)
    (h : (((predicted mode S v q).1 - q.x) / q.xerr) ^ 2 + (((predicted mode S v q).2 - q.y) / q.yerr) ^ 2 = 0) :
    predicted mode S v q = (q.x, q.y) := by
  have h1 := sq_nonneg (((predicted mode S v q).1 - q.x) / q.xerr)
  have h2 := sq_nonneg (((predicted mode S v q).2 - q.y) / q.yerr)
  have a1 : ((predicted mode S v q).1 - q.x) / q.xerr = 0 := pow_eq_zero_iff two_ne_zero |>.1 (by linarith)
  have a2 : ((predicted mode S v q).2 - q.y) / q.yerr = 0 := pow_eq_zero_iff two_ne_zero |>.1 (by linarith)
  rw [div_eq_zero_iff] at a1 a2
  refine Prod.ext ?_ ?_
  · have := a1.resolve_right hx; simp only; linarith
  · have := a2.resolve_right hy; simp only; linarith

/-- Points that allowed values reproduce exactly are fitted exactly. -/
theorem exact_pts {e : Env} {lo hi : Vals} (hm : Minimises e.free lo hi e.minimise) {l : List Pt} (hl : l ≠ [])
    (hd : e.mode = .dynamic → kST ∈ e.free ∧ kSP ∈ e.free) (herr : ∀ q ∈ l, q.xerr ≠ 0 ∧ q.yerr ≠ 0) {v : Vals}
    (hv : Allowed e lo hi v) (hex : ∀ q ∈ l, predicted e.mode e.seqs v q = (q.x, q.y)) :
    ∃ r, fitLoop e l = .ok r ∧ r.rms = 0 ∧ r.npts = l.length ∧ Allowed e lo hi r.vals ∧
      ∀ q ∈ l, predicted e.mode e.seqs r.vals q = (q.x, q.y) := by
  have hb : ∀ k ∈ e.free, lo k ≤ hi k := fun k hk => (hv.2 k hk).1.trans (hv.2 k hk).2
  obtain ⟨hall, hbest⟩ := best_spec hb hm l
  have h0 : weighted e.mode e.seqs l v = 0 := by
    unfold weighted
    rw [List.map_congr_left (g := fun _ => (0 : ℝ)) (by intro q hq; rw [hex q hq]; simp)]
    simp
  have hle := hbest v hv
  rw [h0] at hle
  have hz : ∀ q ∈ l, predicted e.mode e.seqs (e.best l) q = (q.x, q.y) := by
    intro q hq
    refine residual_zero (herr q hq).1 (herr q hq).2 (le_antisymm (le_trans ?_ hle) (by positivity))
    exact List.single_le_sum (l := l.map fun q => (((predicted e.mode e.seqs (e.best l) q).1 - q.x) / q.xerr) ^ 2 +
      (((predicted e.mode e.seqs (e.best l) q).2 - q.y) / q.yerr) ^ 2) (by
        intro x hx
        obtain ⟨q', -, rfl⟩ := List.mem_map.1 hx
        positivity) _ (List.mem_map.2 ⟨q, hq, rfl⟩)
  have hres : ∀ q ∈ l, residual e.mode e.seqs (e.best l) q = 0 := by
    intro q hq
    unfold residual
    rw [hz q hq]; simp
  have hloop : loop e 20 e.nom l = .ok (e.best l, l) := by
    unfold loop
    rw [if_neg (by intro h; exact hl (List.length_eq_zero_iff.1 h))]
    dsimp only
    split_ifs with h1 h2 h3
    · rfl
    · rfl
    all_goals
      exfalso
      push Not at h2
      have hdist : l.map (distance e.mode e.seqs (e.best l)) = l.map fun _ => (0 : ℝ) :=
        List.map_congr_left fun q hq => by rw [distance_eq, hres q hq]
      rw [hdist] at h2
      have : (l.map fun _ => (0 : ℝ)).getD (argmaxReal (l.map fun _ => (0 : ℝ))) 0 = 0 := by
        rw [List.getD_eq_getElem?_getD]
        rcases hk : (l.map fun _ => (0 : ℝ))[argmaxReal (l.map fun _ => (0 : ℝ))]? with _ | a
        · rfl
        · obtain ⟨_, -, rfl⟩ := List.mem_map.1 (List.mem_of_getElem? hk)
          rfl
      rw [this] at h2
      norm_num at h2
  refine ⟨⟨e.best l, 0, l.length⟩, ?_, rfl, rfl, hall, hz⟩
  unfold fitLoop
  rw [if_neg (by rintro ⟨h1, h2⟩; exact h2 (hd h1)), hloop]
  simp only [bind, Except.bind, pure, Except.pure, sumsq_eq]
  rw [List.map_congr_left (g := fun _ => (0 : ℝ)) (by intro q hq; rw [hres q hq]; simp)]
  simp

/-- In the sequence of `r` some measurement was not recently rehomed. -/
def Drifting (l : List Raw) (s : ℕ) : Prop := ∃ r ∈ l, r.rehome = false ∧ r.seq = s

theorem mem_noRehome (l : List Raw) (s : ℕ) : s ∈ noRehome l ↔ Drifting l s := by
  unfold noRehome Drifting
  simp only [List.mem_dedup, List.mem_map, List.mem_filter, Bool.not_eq_true']
  constructor
  · rintro ⟨r, ⟨h1, h2⟩, h3⟩; exact ⟨r, h1, h2, h3⟩
  · rintro ⟨r, h1, h2, h3⟩; exact ⟨r, ⟨h1, h2⟩, h3⟩

open Classical in
/-- Drift of the angles in a sequence. -/
noncomputable def driftOf (l : List Raw) (v : Vals) (s : ℕ) : ℝ × ℝ := if Drifting l s then (v (epsT s), v (epsP s)) else (0, 0)

theorem drift_eq (l : List Raw) (v : Vals) (s : ℕ) : drift (noRehome l) v s = driftOf l v s := by
  unfold drift driftOf
  by_cases h : s ∈ noRehome l
  · rw [if_pos h, if_pos ((mem_noRehome l s).1 h)]
  · rw [if_neg h, if_neg (fun h' => h ((mem_noRehome l s).2 h'))]

/-- **C71** Static mode, exact data: if some allowed values put every fibre where it was measured (internal angles plus offsets plus, in
sequences with a measurement not recently rehomed, the drift of the sequence), so do the fitted ones; all points are
used and the rms is zero, with and without outlier rejection. -/
theorem C71_static_exact (e : Env) (lo hi : Vals) (hm : Minimises e.free lo hi e.minimise) (l : List Raw) (hl : l ≠ [])
    (hmode : e.mode = .static) (hS : e.seqs = noRehome l) (herr : ∀ r ∈ l, r.xerr ≠ 0 ∧ r.yerr ≠ 0) (v : Vals) (hv : Allowed e lo hi v)
    (hex : ∀ r ∈ l, fibre v (r.t + v kOT + (driftOf l v r.seq).1) (r.p + v kOP + (driftOf l v r.seq).2) = (r.x, r.y)) :
    ∃ f, fitLoop e (staticPts l) = .ok f ∧ f.rms = 0 ∧ f.npts = l.length ∧ Allowed e lo hi f.vals ∧
      ∀ r ∈ l, fibre f.vals (r.t + f.vals kOT + (driftOf l f.vals r.seq).1) (r.p + f.vals kOP + (driftOf l f.vals r.seq).2) =
        (r.x, r.y) := by
  have key : ∀ (u : Vals) (r : Raw), predicted e.mode e.seqs u ⟨r.t, r.p, 0, 0, r.x, r.y, r.xerr, r.yerr, r.seq⟩ =
      fibre u (r.t + u kOT + (driftOf l u r.seq).1) (r.p + u kOP + (driftOf l u r.seq).2) := by
    intro u r
    unfold predicted
    simp only [hmode, reduceCtorEq, if_false, hS, drift_eq, add_zero, add_assoc]
  obtain ⟨f, h1, h2, h3, h4, h5⟩ := exact_pts (l := staticPts l) hm (by simpa [staticPts] using hl) (by rw [hmode]; intro h; cases h)
    (by
      intro q hq
      obtain ⟨r, hr, rfl⟩ := List.mem_map.1 hq
      exact herr r hr) hv (by
      intro q hq
      obtain ⟨r, hr, rfl⟩ := List.mem_map.1 hq
      rw [key, hex r hr])
  refine ⟨f, h1, h2, by simpa [staticPts] using h3, h4, ?_⟩
  intro r hr
  rw [← key]
  exact h5 _ (List.mem_map.2 ⟨r, hr, rfl⟩)

theorem fibre_periodic (v : Vals) {T P T' P' : ℝ} (hT : SameAngle T T') (hP : SameAngle P P') : fibre v T P = fibre v T' P' := by
  obtain ⟨k, hk⟩ := hT
  obtain ⟨j, hj⟩ := hP
  unfold fibre
  have e1 : T * Real.pi / 180 = T' * Real.pi / 180 + k * (2 * Real.pi) := by
    have : T = T' + 360 * k := by linarith
    rw [this]; ring
  have e2 : (T + P) * Real.pi / 180 = (T' + P') * Real.pi / 180 + ((k + j : ℤ) : ℝ) * (2 * Real.pi) := by
    have h1 : T = T' + 360 * k := by linarith
    have h2 : P = P' + 360 * j := by linarith
    rw [h1, h2]; push_cast; ring
  rw [e1, e2, Real.cos_add_int_mul_two_pi, Real.cos_add_int_mul_two_pi, Real.sin_add_int_mul_two_pi, Real.sin_add_int_mul_two_pi]

/-- **C71** Dynamic mode, exact data. Each measurement but the first follows the one before: the arms start from internal angles `T`, `P`
(which, with the drift of that sequence, is what the inverse kinematics with the nominal parameters give for
the measured position, up to whole turns), and turn by the commanded angle over the gear ratio
times the scale. If the scales are free and some allowed ones explain all positions in this way, the fitted ones do. -/
theorem C71_dynamic_exact (e : Env) (lo hi : Vals) (hm : Minimises e.free lo hi e.minimise) (inv : ℝ × ℝ → ℝ × ℝ) (l : List Raw)
    (hl : 2 ≤ l.length) (hmode : e.mode = .dynamic) (hS : e.seqs = noRehome l) (hfree : kST ∈ e.free ∧ kSP ∈ e.free)
    (herr : ∀ r ∈ l, r.xerr ≠ 0 ∧ r.yerr ≠ 0) (T P : ℕ → ℝ)
    (hT : ∀ i (hi : i + 1 < l.length), SameAngle (inv (l[i].x - e.nom kOX, l[i].y - e.nom kOY)).1 (T i + (driftOf l e.nom l[i].seq).1))
    (hP : ∀ i (hi : i + 1 < l.length), SameAngle (inv (l[i].x - e.nom kOX, l[i].y - e.nom kOY)).2 (P i + (driftOf l e.nom l[i].seq).2))
    (v : Vals) (hv : Allowed e lo hi v)
    (hex : ∀ i (hi : i + 1 < l.length), fibre v
      (T i + v kST * ((l[i + 1].t - l[i].t) / l[i + 1].gearT) + v kOT + (driftOf l v l[i + 1].seq).1)
      (P i + v kSP * ((l[i + 1].p - l[i].p) / l[i + 1].gearP) + v kOP + (driftOf l v l[i + 1].seq).2) = (l[i + 1].x, l[i + 1].y)) :
    ∃ f, fitLoop e (dynamicPts inv e.nom l) = .ok f ∧ f.rms = 0 ∧ f.npts + 1 = l.length ∧ Allowed e lo hi f.vals ∧
      ∀ i (hi : i + 1 < l.length), fibre f.vals
        (T i + f.vals kST * ((l[i + 1].t - l[i].t) / l[i + 1].gearT) + f.vals kOT + (driftOf l f.vals l[i + 1].seq).1)
        (P i + f.vals kSP * ((l[i + 1].p - l[i].p) / l[i + 1].gearP) + f.vals kOP + (driftOf l f.vals l[i + 1].seq).2) =
          (l[i + 1].x, l[i + 1].y) := by
  have hd0 : ∀ a b, Model.Pos2ptl.deltaAngle1 a b 0 = b - a := by
    intro a b
    rw [Lemmas.deltaAngle1_val]
    simp
  have key : ∀ (u : Vals) i (hi : i + 1 < l.length), predicted e.mode e.seqs u (dynamicPt inv e.nom (noRehome l) l[i] l[i + 1]) =
      fibre u (T i + u kST * ((l[i + 1].t - l[i].t) / l[i + 1].gearT) + u kOT + (driftOf l u l[i + 1].seq).1)
      (P i + u kSP * ((l[i + 1].p - l[i].p) / l[i + 1].gearP) + u kOP + (driftOf l u l[i + 1].seq).2) := by
    intro u i hi
    have hme : measured0 inv e.nom (noRehome l) l[i] =
        ((inv (l[i].x - e.nom kOX, l[i].y - e.nom kOY)).1 - (driftOf l e.nom l[i].seq).1,
         (inv (l[i].x - e.nom kOX, l[i].y - e.nom kOY)).2 - (driftOf l e.nom l[i].seq).2) := by
      rw [← drift_eq]
      unfold measured0 drift
      split_ifs <;> simp
    unfold predicted dynamicPt
    simp only [hmode, if_true, hS, drift_eq, hd0, hme]
    obtain ⟨a, ha⟩ := hT i hi
    obtain ⟨b, hb⟩ := hP i hi
    exact fibre_periodic u ⟨a, by rw [ha]; ring⟩ ⟨b, by rw [hb]; ring⟩
  have hmem : ∀ q ∈ dynamicPts inv e.nom l, ∃ i, ∃ hi : i + 1 < l.length, q = dynamicPt inv e.nom (noRehome l) l[i] l[i + 1] := by
    intro q hq
    obtain ⟨i, hi, rfl⟩ := List.mem_iff_getElem.1 hq
    have hi' : i + 1 < l.length := by
      unfold dynamicPts at hi
      simp only [List.length_zipWith, List.length_tail] at hi
      omega
    exact ⟨i, hi', by simp [dynamicPts]⟩
  have hlen : (dynamicPts inv e.nom l).length + 1 = l.length := by
    unfold dynamicPts
    simp only [List.length_zipWith, List.length_tail]
    omega
  obtain ⟨f, h1, h2, h3, h4, h5⟩ := exact_pts (l := dynamicPts inv e.nom l) hm (by
      intro h0; rw [h0] at hlen; simp at hlen; omega) (fun _ => hfree)
    (by
      intro q hq
      obtain ⟨i, hi, rfl⟩ := hmem q hq
      exact herr _ (List.getElem_mem _)) hv (by
      intro q hq
      obtain ⟨i, hi, rfl⟩ := hmem q hq
      rw [key, hex i hi]
      rfl)
  refine ⟨f, h1, h2, by rw [h3, hlen], h4, ?_⟩
  intro i hi
  rw [← key]
  refine h5 _ ?_
  have hi' : i < (dynamicPts inv e.nom l).length := by omega
  have : (dynamicPts inv e.nom l)[i] = dynamicPt inv e.nom (noRehome l) l[i] l[i + 1] := by
    simp [dynamicPts]
  rw [← this]
  exact List.getElem_mem _

/-- **C71** (finding) In static mode the offset and the drifts cannot be told apart when every sequence has a measurement not recently
rehomed: adding any angle to OFFSET_T and taking it off all EPSILON_T changes nothing. So a measurement with `recent_rehome`, which the code asks for
(line 154), does not help when others of its sequence have none. -/
theorem C71_degenerate (l : List Raw) (h : ∀ r ∈ l, Drifting l r.seq) (v : Vals) (δ : ℝ) :
    ∃ v' : Vals, v' kOT = v kOT + δ ∧ (∀ k, k ≠ kOT → (∀ s, k ≠ epsT s) → v' k = v k) ∧
      weighted .static (noRehome l) (staticPts l) v' = weighted .static (noRehome l) (staticPts l) v ∧
      ∀ q ∈ staticPts l, predicted .static (noRehome l) v' q = predicted .static (noRehome l) v q := by
  classical
  have hne : ∀ k : PyStr, k.head? ≠ some 'E' → ∀ s, k ≠ epsT s := by
    rintro k hk s rfl
    exact hk rfl
  have hP : ∀ s s', epsP s ≠ epsT s' := by
    intro s s' h0
    have h1 : (epsP s)[8]? = some 'P' := rfl
    have h2 : (epsT s')[8]? = some 'T' := rfl
    rw [h0, h2] at h1
    cases h1
  have hOT : ∀ k : PyStr, k[7]? ≠ some 'T' → k ≠ kOT := by
    rintro k hk rfl
    exact hk rfl
  let v' : Vals := fun k => if k = kOT then v k + δ else if ∃ s, k = epsT s then v k - δ else v k
  have e1 : v' kOT = v kOT + δ := if_pos rfl
  have e2 : ∀ k, k ≠ kOT → (∀ s, k ≠ epsT s) → v' k = v k := by
    intro k h1 h2
    show (if k = kOT then v k + δ else if ∃ s, k = epsT s then v k - δ else v k) = v k
    rw [if_neg h1, if_neg (by rintro ⟨s, hs⟩; exact h2 s hs)]
  have e3 : ∀ s, v' (epsT s) = v (epsT s) - δ := by
    intro s
    show (if epsT s = kOT then v (epsT s) + δ else if ∃ s', epsT s = epsT s' then v (epsT s) - δ else v (epsT s)) = _
    rw [if_neg (hOT _ (by show some '_' ≠ some 'T'; decide)), if_pos ⟨s, rfl⟩]
  have e4 : ∀ s, v' (epsP s) = v (epsP s) := fun s => e2 _ (hOT _ (by show some '_' ≠ some 'T'; decide)) (hP s)
  have eOP : v' kOP = v kOP := e2 _ (by decide) (hne _ (by decide))
  have eOX : v' kOX = v kOX := e2 _ (by decide) (hne _ (by decide))
  have eOY : v' kOY = v kOY := e2 _ (by decide) (hne _ (by decide))
  have eR1 : v' kR1 = v kR1 := e2 _ (by decide) (hne _ (by decide))
  have eR2 : v' kR2 = v kR2 := e2 _ (by decide) (hne _ (by decide))
  clear_value v'
  have key : ∀ q ∈ staticPts l, predicted .static (noRehome l) v' q = predicted .static (noRehome l) v q := by
    intro q hq
    obtain ⟨r, hr, rfl⟩ := List.mem_map.1 hq
    have hs := (mem_noRehome l r.seq).2 (h r hr)
    unfold predicted fibre drift
    simp only [reduceCtorEq, if_false, if_pos hs, e1, e3, e4, eOP, eOX, eOY, eR1, eR2]
    have : v kOT + δ + (v (epsT r.seq) - δ) = v kOT + v (epsT r.seq) := by ring
    rw [this]
  refine ⟨v', e1, e2, ?_, key⟩
  unfold weighted
  congr 1
  apply List.map_congr_left
  intro q hq
  rw [key q hq]

/-- **C71** In a sequence with all measurements recently rehomed the expected positions do not depend on drifts, so these pin OFFSET_T and
OFFSET_P. -/
theorem C71_rehomed (l : List Raw) (r : Raw) (hr : ¬ Drifting l r.seq) (v v' : Vals)
    (hv : ∀ k, (∀ s, k ≠ epsT s) → (∀ s, k ≠ epsP s) → v' k = v k) (q : Pt) (hq : q.seq = r.seq) (mode : Mode) :
    predicted mode (noRehome l) v' q = predicted mode (noRehome l) v q := by
  have hne : ∀ k : PyStr, k.head? ≠ some 'E' → (∀ s, k ≠ epsT s) ∧ ∀ s, k ≠ epsP s := by
    intro k hk
    constructor
    · rintro s rfl; exact hk rfl
    · rintro s rfl; exact hk rfl
  have e0 : ∀ k : PyStr, k.head? ≠ some 'E' → v' k = v k := fun k hk => hv k (hne k hk).1 (hne k hk).2
  unfold predicted fibre drift
  rw [hq, if_neg (fun h => hr ((mem_noRehome l r.seq).1 h)), if_neg (fun h => hr ((mem_noRehome l r.seq).1 h))]
  rw [e0 kOT (by decide), e0 kOP (by decide), e0 kOX (by decide), e0 kOY (by decide), e0 kR1 (by decide), e0 kR2 (by decide),
    e0 kST (by decide), e0 kSP (by decide)]

/-! ### Witnesses -/

/-- There is such an optimiser for any bounds. -/
theorem minimises_exists (free : List PyStr) (lo hi : Vals) : ∃ m, Minimises free lo hi m := by
  classical
  refine ⟨fun f => if h : ∃ p : Vals, (∀ k ∈ free, lo k ≤ p k ∧ p k ≤ hi k) ∧
    ∀ q : Vals, (∀ k ∈ free, lo k ≤ q k ∧ q k ≤ hi k) → f p ≤ f q then h.choose else lo, ?_⟩
  intro f h
  simp only [dif_pos h]
  exact h.choose_spec

/-- All parameters held at zero by the bounds: the fibre is expected at the origin. -/
def Held (e : Env) : Prop :=
  e.mode = .static ∧ e.reject = true ∧ (∀ k, e.nom k = 0) ∧ Minimises e.free (fun _ => 0) (fun _ => 0) e.minimise

theorem held_exists (free : List PyStr) : ∃ e, Held e ∧ e.free = free := by
  obtain ⟨m, hm⟩ := minimises_exists free (fun _ => 0) (fun _ => 0)
  exact ⟨⟨.static, [], fun _ => 0, free, m, true⟩, ⟨rfl, rfl, fun _ => rfl, hm⟩, rfl⟩

theorem Held.best {e : Env} (h : Held e) (l : List Pt) : e.best l = fun _ => 0 := by
  obtain ⟨⟨h1, h2⟩, -⟩ := best_spec (e := e) (lo := fun _ => 0) (hi := fun _ => 0) (fun _ _ => le_refl _) h.2.2.2 l
  funext k
  by_cases hk : k ∈ e.free
  · exact le_antisymm (h2 k hk).2 (h2 k hk).1
  · rw [h1 k hk, h.2.2.1]

/-- A measurement 1 mm off, and one at the origin. -/
def far : Pt := ⟨0, 0, 0, 0, 1, 0, 1, 1, 0⟩
def near : Pt := ⟨0, 0, 0, 0, 0, 0, 1, 1, 0⟩

theorem res_far (S : List ℕ) : residual .static S (fun _ => 0) far = 1 := by
  unfold residual predicted fibre far drift
  simp

theorem res_near (S : List ℕ) : residual .static S (fun _ => 0) near = 0 := by
  unfold residual predicted fibre near drift
  simp

theorem med_le {a b : ℕ} (hab : a < b) {m : ℝ} (h : IsMedian (List.replicate a (1 : ℝ) ++ List.replicate b 0) m) : m ≤ 0 := by
  by_contra hm
  push Not at hm
  have := h.1
  rw [List.filter_append, List.length_append, List.length_append] at this
  have h2 : (List.replicate b (0 : ℝ)).filter (· < m) = List.replicate b 0 := List.filter_replicate_of_pos (by simpa using hm)
  rw [h2] at this
  simp only [List.length_replicate] at this
  omega

theorem held_step {e : Env} (h : Held e) {a b : ℕ} (hab : a + 1 < b) (k : ℕ) (last : Vals) :
    loop e (k + 1) last (List.replicate (a + 1) far ++ List.replicate b near) =
      if a + b < e.free.length then .error .keyError
      else loop e k (fun _ => 0) (List.replicate a far ++ List.replicate b near) := by
  set l := List.replicate (a + 1) far ++ List.replicate b near with hl
  have hd : l.map (distance e.mode e.seqs (fun _ => 0)) = List.replicate (a + 1) 1 ++ List.replicate b 0 := by
    rw [hl, List.map_append, List.map_replicate, List.map_replicate, distance_eq, distance_eq, h.1, res_far, res_near]
  have hne : List.replicate (a + 1) (1 : ℝ) ++ List.replicate b 0 ≠ [] := by simp [List.replicate_succ]
  have hget0 : (List.replicate (a + 1) (1 : ℝ) ++ List.replicate b 0).getD 0 0 = 1 := by simp [List.replicate_succ]
  obtain ⟨hw1, hw2, hw3⟩ := Lemmas.argmaxReal_spec _ hne
  have hmed := med_le (m := median (List.replicate (a + 1) (1 : ℝ) ++ List.replicate b 0)) hab (MatchPos.median_spec _)
  rw [loop, if_neg (by rw [hl]; simp)]
  dsimp only
  rw [h.best, h.2.1, hd]
  generalize hw : argmaxReal (List.replicate (a + 1) (1 : ℝ) ++ List.replicate b 0) = w at hw1 hw2 hw3 ⊢
  have hle : (List.replicate (a + 1) (1 : ℝ) ++ List.replicate b 0).getD w 0 ≤ 1 := by
    rw [List.getD_eq_getElem?_getD, List.getElem?_eq_getElem hw1, Option.getD_some]
    have := List.getElem_mem hw1
    rw [List.mem_append] at this
    rcases this with h1 | h1
    · rw [(List.mem_replicate.1 h1).2]
    · rw [(List.mem_replicate.1 h1).2]; norm_num
  have h0 : w = 0 := by
    by_contra hne0
    have := hw3 0 (Nat.pos_of_ne_zero hne0)
    rw [hget0] at this
    linarith
  subst h0
  rw [hget0]
  simp only [Bool.not_true, Bool.false_eq_true, if_false]
  rw [if_neg (by
    push Not
    exact ⟨by norm_num, by linarith⟩)]
  have her : l.eraseIdx 0 = List.replicate a far ++ List.replicate b near := by rw [hl]; simp [List.replicate_succ]
  rw [her]
  simp

/-- **C71** (finding, witness) Twenty is not enough: with 25 points out of 100 off by 1 mm, the result is reported with five of them still in. -/
theorem C71_twenty : ∃ e l r, Held e ∧ fitLoop e l = .ok r ∧ r.npts = 80 ∧ l.length = 100 ∧
    ∃ used, used.length = r.npts ∧ Discards e (fun _ => 0) (fun _ => 0) l used 20 ∧ ¬ Clean e r.vals used := by
  obtain ⟨e, he, hfree⟩ := held_exists []
  have hloop : ∀ k a last, loop e k last (List.replicate (a + k) far ++ List.replicate 75 near) = .ok
      (if k = 0 then last else fun _ => 0, List.replicate a far ++ List.replicate 75 near) ∨ 75 ≤ a + k := by
    intro k
    induction k with
    | zero => intro a last; exact Or.inl (by simp [loop])
    | succ k ih =>
      intro a last
      by_cases hk : 75 ≤ a + (k + 1)
      · exact Or.inr hk
      left
      have e1 : a + (k + 1) = (a + k) + 1 := by omega
      rw [e1, held_step he (by omega), if_neg (by rw [hfree]; simp)]
      rcases ih a (fun _ => 0) with h1 | h1
      · rw [h1]; simp
      · omega
  have h20 := (hloop 20 5 e.nom).resolve_right (by omega)
  have hfit : fitLoop e (List.replicate (5 + 20) far ++ List.replicate 75 near) = .ok ⟨fun _ => 0, Real.sqrt (sumsq e.mode e.seqs (fun _ => 0)
      (List.replicate 5 far ++ List.replicate 75 near) / (List.replicate (5 + 20) far ++ List.replicate 75 near).length), 80⟩ := by
    unfold fitLoop
    rw [if_neg (by rintro ⟨h1, -⟩; rw [he.1] at h1; cases h1), h20]
    simp only [bind, Except.bind, pure, Except.pure]
    rfl
  refine ⟨e, _, _, he, hfit, rfl, by simp, List.replicate 5 far ++ List.replicate 75 near, by simp, ?_, ?_⟩
  · obtain ⟨n, h1, h2, -⟩ := loop_spec (e := e) (lo := fun _ => 0) (hi := fun _ => 0) (fun _ _ => le_refl _) he.2.2.2 he.2.1 20 _ _ _ _ h20
    have := h2.length.1
    have h20' : n = 20 := by simp only [List.length_append, List.length_replicate] at this; omega
    subst h20'
    exact h2
  · have hmem : far ∈ List.replicate 5 far ++ List.replicate 75 near := by simp
    rintro (h1 | ⟨med, h1, h2⟩)
    · have := h1 far hmem
      rw [he.1, res_far] at this
      norm_num at this
    · rw [List.map_append, List.map_replicate, List.map_replicate, he.1, res_far, res_near] at h1
      have h3 := med_le (by omega) h1
      have := h2 far hmem
      rw [he.1, res_far] at this
      linarith

/-- **C71** (finding, witness) Three points, one 1 mm off, three free parameters: a `KeyError`. -/
theorem C71_too_few_witness : ∃ e l, Held e ∧ e.free = [kR1, kR2, kOX] ∧ l.length = 3 ∧ fitLoop e l = .error .keyError := by
  obtain ⟨e, he, hfree⟩ := held_exists [kR1, kR2, kOX]
  refine ⟨e, List.replicate (0 + 1) far ++ List.replicate 2 near, he, hfree, rfl, ?_⟩
  unfold fitLoop
  rw [if_neg (by rintro ⟨h1, -⟩; rw [he.1] at h1; cases h1), held_step he (by omega), if_pos (by rw [hfree]; simp)]
  rfl

/-! ### The hypotheses can be met -/

/-- `C71_degenerate`: two measurements in one sequence, the first recently rehomed, the second not. -/
example : ∀ r ∈ [(⟨0, 0, 0, 0, 1, 1, 1, 1, true, 5⟩ : Raw), ⟨10, 0, 0, 0, 1, 1, 1, 1, false, 5⟩],
    Drifting [(⟨0, 0, 0, 0, 1, 1, 1, 1, true, 5⟩ : Raw), ⟨10, 0, 0, 0, 1, 1, 1, 1, false, 5⟩] r.seq := by
  intro r hr
  refine ⟨⟨10, 0, 0, 0, 1, 1, 1, 1, false, 5⟩, by simp, rfl, ?_⟩
  simp only [List.mem_cons, List.not_mem_nil, or_false] at hr
  rcases hr with rfl | rfl <;> rfl

/-- Arms of 3 mm, everything else zero. -/
noncomputable def arms : Vals := fun k => if k = kR1 ∨ k = kR2 then 3 else 0

theorem arms_fibre (T P : ℝ) : fibre arms T P =
    (3 * Real.cos (T * Real.pi / 180) + 3 * Real.cos ((T + P) * Real.pi / 180),
     3 * Real.sin (T * Real.pi / 180) + 3 * Real.sin ((T + P) * Real.pi / 180)) := by
  have h1 : arms kR1 = 3 := if_pos (Or.inl rfl)
  have h2 : arms kR2 = 3 := if_pos (Or.inr rfl)
  have h3 : arms kOX = 0 := if_neg (by decide)
  have h4 : arms kOY = 0 := if_neg (by decide)
  unfold fibre
  rw [h1, h2, h3, h4]
  simp

/-- `C71_static_exact`: two measurements, arms stretched along x and along y, arm length R1 free. -/
example : ∃ (e : Env) (lo hi : Vals) (l : List Raw) (v : Vals), Minimises e.free lo hi e.minimise ∧ e.free = [kR1] ∧ lo kR1 < hi kR1 ∧
    l.length = 2 ∧ e.mode = .static ∧ e.seqs = noRehome l ∧ (∀ r ∈ l, r.xerr ≠ 0 ∧ r.yerr ≠ 0) ∧ Allowed e lo hi v ∧
    ∀ r ∈ l, fibre v (r.t + v kOT + (driftOf l v r.seq).1) (r.p + v kOP + (driftOf l v r.seq).2) = (r.x, r.y) := by
  obtain ⟨m, hm⟩ := minimises_exists [kR1] (fun _ => 2) (fun _ => 4)
  have hl : ∀ s, ¬ Drifting [(⟨0, 0, 6, 0, 1, 1, 1, 1, true, 5⟩ : Raw), ⟨90, 0, 0, 6, 1, 1, 1, 1, true, 5⟩] s := by
    rintro s ⟨r, hr, h1, -⟩
    simp only [List.mem_cons, List.not_mem_nil, or_false] at hr
    rcases hr with rfl | rfl <;> cases h1
  have h3 : arms kOT = 0 := if_neg (by decide)
  have h4 : arms kOP = 0 := if_neg (by decide)
  have h1 : arms kR1 = 3 := if_pos (Or.inl rfl)
  refine ⟨⟨.static, noRehome [(⟨0, 0, 6, 0, 1, 1, 1, 1, true, 5⟩ : Raw), ⟨90, 0, 0, 6, 1, 1, 1, 1, true, 5⟩], arms, [kR1], m, true⟩,
    fun _ => 2, fun _ => 4, [(⟨0, 0, 6, 0, 1, 1, 1, 1, true, 5⟩ : Raw), ⟨90, 0, 0, 6, 1, 1, 1, 1, true, 5⟩], arms, hm, rfl, by norm_num, rfl, rfl,
    rfl, ?_, ⟨fun _ _ => rfl, ?_⟩, ?_⟩
  · intro r hr
    simp only [List.mem_cons, List.not_mem_nil, or_false] at hr
    rcases hr with rfl | rfl <;> norm_num
  · intro k hk
    simp only [List.mem_singleton] at hk
    subst hk
    rw [h1]; norm_num
  · intro r hr
    have hdr : driftOf [(⟨0, 0, 6, 0, 1, 1, 1, 1, true, 5⟩ : Raw), ⟨90, 0, 0, 6, 1, 1, 1, 1, true, 5⟩] arms r.seq = (0, 0) := if_neg (hl _)
    rw [hdr, arms_fibre, h3, h4]
    simp only [List.mem_cons, List.not_mem_nil, or_false] at hr
    have e90 : (90 : ℝ) * Real.pi / 180 = Real.pi / 2 := by ring
    rcases hr with rfl | rfl
    · norm_num
    · simp only [add_zero, e90, Real.cos_pi_div_two, Real.sin_pi_div_two]; norm_num

/-- `C71_dynamic_exact`: from angle 0 a commanded turn of 180 degrees with scale 1/2 ends at 90 degrees; the scales are free. -/
example : ∃ (e : Env) (lo hi : Vals) (inv : ℝ × ℝ → ℝ × ℝ) (l : List Raw) (T P : ℕ → ℝ) (v : Vals), Minimises e.free lo hi e.minimise ∧
    l.length = 2 ∧ e.mode = .dynamic ∧ e.seqs = noRehome l ∧ e.free = [kST, kSP] ∧ (∀ r ∈ l, r.xerr ≠ 0 ∧ r.yerr ≠ 0) ∧
    (∀ i (_ : i + 1 < l.length), SameAngle (inv (l[i].x - e.nom kOX, l[i].y - e.nom kOY)).1 (T i + (driftOf l e.nom l[i].seq).1)) ∧
    (∀ i (_ : i + 1 < l.length), SameAngle (inv (l[i].x - e.nom kOX, l[i].y - e.nom kOY)).2 (P i + (driftOf l e.nom l[i].seq).2)) ∧
    Allowed e lo hi v ∧ v kST = 1 / 2 ∧
    ∀ i (_ : i + 1 < l.length), fibre v
      (T i + v kST * ((l[i + 1].t - l[i].t) / l[i + 1].gearT) + v kOT + (driftOf l v l[i + 1].seq).1)
      (P i + v kSP * ((l[i + 1].p - l[i].p) / l[i + 1].gearP) + v kOP + (driftOf l v l[i + 1].seq).2) = (l[i + 1].x, l[i + 1].y) := by
  obtain ⟨m, hm⟩ := minimises_exists [kST, kSP] (fun _ => 0) (fun _ => 2)
  set l : List Raw := [⟨0, 0, 6, 0, 1, 1, 1, 1, true, 5⟩, ⟨180, 0, 0, 6, 1, 1, 1, 1, true, 5⟩] with hldef
  have hl : ∀ s, ¬ Drifting l s := by
    rintro s ⟨r, hr, h1, -⟩
    simp only [hldef, List.mem_cons, List.not_mem_nil, or_false] at hr
    rcases hr with rfl | rfl <;> cases h1
  have hdr : ∀ v s, driftOf l v s = (0, 0) := fun v s => if_neg (hl s)
  let v : Vals := fun k => if k = kST ∨ k = kSP then 1 / 2 else arms k
  have v1 : v kST = 1 / 2 := if_pos (Or.inl rfl)
  have v2 : v kSP = 1 / 2 := if_pos (Or.inr rfl)
  have v0 : ∀ k, k ≠ kST → k ≠ kSP → v k = arms k := fun k h1 h2 => if_neg (by rintro (h | h); exacts [h1 h, h2 h])
  have h3 : v kOT = 0 := by rw [v0 _ (by decide) (by decide)]; exact if_neg (by decide)
  have h4 : v kOP = 0 := by rw [v0 _ (by decide) (by decide)]; exact if_neg (by decide)
  have hf : ∀ T P, fibre v T P = fibre arms T P := by
    intro T P
    unfold fibre
    rw [v0 kR1 (by decide) (by decide), v0 kR2 (by decide) (by decide), v0 kOX (by decide) (by decide), v0 kOY (by decide) (by decide)]
  clear_value v
  refine ⟨⟨.dynamic, noRehome l, arms, [kST, kSP], m, true⟩, fun _ => 0, fun _ => 2, fun _ => (360, 0), l, fun _ => 0, fun _ => 0, v, hm, rfl, rfl,
    rfl, rfl, ?_, ?_, ?_, ⟨?_, ?_⟩, v1, ?_⟩
  · intro r hr
    simp only [hldef, List.mem_cons, List.not_mem_nil, or_false] at hr
    rcases hr with rfl | rfl <;> norm_num
  · intro i _; rw [hdr]; exact ⟨1, by norm_num⟩
  · intro i _; rw [hdr]; exact ⟨0, by norm_num⟩
  · intro k hk
    simp only [List.mem_cons, List.not_mem_nil, or_false, not_or] at hk
    exact v0 k hk.1 hk.2
  · intro k hk
    simp only [List.mem_cons, List.not_mem_nil, or_false] at hk
    rcases hk with rfl | rfl
    · rw [v1]; norm_num
    · rw [v2]; norm_num
  · intro i hi
    have : i = 0 := by simp only [hldef, List.length_cons, List.length_nil] at hi; omega
    subst this
    rw [hdr, hf, arms_fibre, v1, v2, h3, h4]
    have e90 : (90 : ℝ) * Real.pi / 180 = Real.pi / 2 := by ring
    simp only [hldef, List.getElem_cons_succ, List.getElem_cons_zero]
    norm_num
    rw [show (90 : ℝ) * Real.pi / 180 = Real.pi / 2 by ring]
    simp
    norm_num

/-- **C71** The default values: two arms of 3 mm, no offset, unit scales, so that with no drift the expected position is that of an ideal
positioner which moves as told; they are within the default bounds: arms of 2.5 to 3.5 mm, offsets within 200 and 30 degrees and
500 mm of zero on either side, scales from 0 to 1. -/
theorem C71_defaults (v : Vals) (hv : ∀ k ∈ allKeys, defaultValues.get? k = some (v k)) :
    (∀ S q, q.seq ∉ S → predicted .static S v q =
      (3 * (Real.cos (q.t * Real.pi / 180) + Real.cos ((q.t + q.p) * Real.pi / 180)),
        3 * (Real.sin (q.t * Real.pi / 180) + Real.sin ((q.t + q.p) * Real.pi / 180)))) ∧
    (∀ S q, predicted .dynamic S v q = predicted .static S v { q with t := q.t + q.dt, p := q.p + q.dp }) ∧
    (∀ k ∈ allKeys, ∃ lo hi, defaultBounds.get? k = some (lo, hi) ∧ lo < hi ∧ lo ≤ v k ∧ v k ≤ hi) ∧
    (∀ k ∈ [kR1, kR2], defaultBounds.get? k = some (v k - 0.5, v k + 0.5)) ∧
    (∀ k w, (k, w) ∈ [(kOT, (200 : ℝ)), (kOP, 30), (kOX, 500), (kOY, 500)] → defaultBounds.get? k = some (v k - w, v k + w)) ∧
    ∀ k ∈ [kST, kSP], defaultBounds.get? k = some (0, v k) := by
  have g : ∀ k x, k ∈ allKeys → defaultValues.get? k = some x → v k = x := fun k x hk h => by
    have := hv k hk; rw [h] at this; exact (Option.some.inj this).symm
  have d1 : v kR1 = 3 := g _ _ (by decide) rfl
  have d2 : v kR2 = 3 := g _ _ (by decide) rfl
  have d3 : v kOT = 0 := g _ _ (by decide) rfl
  have d4 : v kOP = 0 := g _ _ (by decide) rfl
  have d5 : v kOX = 0 := g _ _ (by decide) rfl
  have d6 : v kOY = 0 := g _ _ (by decide) rfl
  have d7 : v kST = 1 := g _ _ (by decide) rfl
  have d8 : v kSP = 1 := g _ _ (by decide) rfl
  refine ⟨?_, ?_, ?_, ?_, ?_, ?_⟩
  · intro S q hq
    simp only [predicted, fibre, drift, if_neg hq, reduceCtorEq, if_false, d1, d2, d3, d4, d5, d6, add_zero, zero_add]
    rw [mul_add, mul_add]
  · intro S q
    simp only [predicted, reduceCtorEq, if_false, if_true, d7, d8, add_zero, one_mul]
  · intro k hk
    simp only [allKeys, staticKeys, dynamicKeys, List.cons_append, List.nil_append, List.mem_cons, List.not_mem_nil, or_false] at hk
    rcases hk with h | h | h | h | h | h | h | h
    all_goals subst h
    · exact ⟨_, _, rfl, by norm_num, by show _ ≤ v kR1; rw [d1]; norm_num, by show v kR1 ≤ _; rw [d1]; norm_num⟩
    · exact ⟨_, _, rfl, by norm_num, by show _ ≤ v kR2; rw [d2]; norm_num, by show v kR2 ≤ _; rw [d2]; norm_num⟩
    · exact ⟨_, _, rfl, by norm_num, by show _ ≤ v kOT; rw [d3]; norm_num, by show v kOT ≤ _; rw [d3]; norm_num⟩
    · exact ⟨_, _, rfl, by norm_num, by show _ ≤ v kOP; rw [d4]; norm_num, by show v kOP ≤ _; rw [d4]; norm_num⟩
    · exact ⟨_, _, rfl, by norm_num, by show _ ≤ v kOX; rw [d5]; norm_num, by show v kOX ≤ _; rw [d5]; norm_num⟩
    · exact ⟨_, _, rfl, by norm_num, by show _ ≤ v kOY; rw [d6]; norm_num, by show v kOY ≤ _; rw [d6]; norm_num⟩
    · exact ⟨_, _, rfl, by norm_num, by show _ ≤ v kST; rw [d7]; norm_num, by show v kST ≤ _; rw [d7]⟩
    · exact ⟨_, _, rfl, by norm_num, by show _ ≤ v kSP; rw [d8]; norm_num, by show v kSP ≤ _; rw [d8]⟩
  · have e1 : defaultBounds.get? kR1 = some (2.5, 3.5) := rfl
    have e2 : defaultBounds.get? kR2 = some (2.5, 3.5) := rfl
    intro k hk
    simp only [List.mem_cons, List.not_mem_nil, or_false] at hk
    rcases hk with h | h
    all_goals subst h
    · rw [e1, d1]; norm_num
    · rw [e2, d2]; norm_num
  · have e1 : defaultBounds.get? kOT = some (-200, 200) := rfl
    have e2 : defaultBounds.get? kOP = some (-30, 30) := rfl
    have e3 : defaultBounds.get? kOX = some (-500, 500) := rfl
    have e4 : defaultBounds.get? kOY = some (-500, 500) := rfl
    intro k w hk
    simp only [List.mem_cons, List.not_mem_nil, or_false, Prod.mk.injEq] at hk
    rcases hk with ⟨h, h'⟩ | ⟨h, h'⟩ | ⟨h, h'⟩ | ⟨h, h'⟩
    all_goals subst h h'
    · rw [e1, d3]; norm_num
    · rw [e2, d4]; norm_num
    · rw [e3, d5]; norm_num
    · rw [e4, d6]; norm_num
  · have e1 : defaultBounds.get? kST = some (0, 1) := rfl
    have e2 : defaultBounds.get? kSP = some (0, 1) := rfl
    intro k hk
    simp only [List.mem_cons, List.not_mem_nil, or_false] at hk
    rcases hk with h | h
    all_goals subst h
    · rw [e1, d7]
    · rw [e2, d8]

/-- Values as in `C71_defaults`. -/
example : ∃ v : Vals, ∀ k ∈ allKeys, defaultValues.get? k = some (v k) :=
  ⟨fun k => (defaultValues.get? k).getD 0, by
    intro k hk
    simp only [allKeys, staticKeys, dynamicKeys, List.cons_append, List.nil_append, List.mem_cons, List.not_mem_nil, or_false] at hk
    rcases hk with h | h | h | h | h | h | h | h <;> (subst h; rfl)⟩

end Verif.Props.FitLoop
