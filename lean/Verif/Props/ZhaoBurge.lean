import Verif.Lemmas.ZhaoBurgePoly
import Verif.Lemmas.LinAlg

namespace Verif.Props
open Verif.Py Verif.Model.ZhaoBurge Verif.Lemmas.ZhaoBurge Verif.Lemmas.LinAlg

/-! ## C26: index conversions -/

/-- C26: numbers below 1 are not Noll numbers: an explicit error. -/
theorem C26_noll_error (j : ℤ) (h : j ≤ 0) : convertNolltoBW j = .error .valueError := by
  unfold convertNolltoBW
  have : (j : ℝ) ≤ 0 := by exact_mod_cast h
  rw [if_pos (by linarith)]

/-- C26: every Noll number from 1 up has an index pair with `|m| ≤ n`, `n - m` even,
`m` not positive for odd numbers and not negative for even ones; the numbers
`n(n+1)/2 + 1 … (n+1)(n+2)/2` have first index `n`. -/
theorem C26_noll_valid (j : ℤ) (h : 1 ≤ j) : ∃ n m : ℤ, convertNolltoBW j = .ok (n, m) ∧
    |m| ≤ n ∧ (n - m) % 2 = 0 ∧ (j % 2 = 1 → m ≤ 0) ∧ (j % 2 = 0 → 0 ≤ m) ∧
    n * (n + 1) < 2 * j ∧ 2 * j ≤ (n + 1) * (n + 2) := by
  obtain ⟨n, d, hd, e⟩ := noll_row j h
  refine ⟨_, _, noll_spec n d hd j e, ?_⟩
  have e2 : ((n:ℤ) + 1) * (n + 2) = n * (n + 1) + 2 * n + 2 := by ring
  rw [e2]
  generalize (n : ℤ) * (n + 1) = P at *
  unfold absM
  split_ifs <;> (try rw [abs_neg]) <;> rw [abs_of_nonneg (by positivity)] <;> omega

/-- C26: the conversion is a bijection between the positive integers and the index
pairs: every pair with `|m| ≤ n` and `n - m` even has exactly one Noll number. -/
theorem C26_noll_bijective (n m : ℤ) (h : |m| ≤ n) (hp : (n - m) % 2 = 0) :
    ∃! j : ℤ, 1 ≤ j ∧ convertNolltoBW j = .ok (n, m) := by
  obtain ⟨N, rfl⟩ : ∃ N : ℕ, n = N := ⟨n.toNat, by have := abs_nonneg m; omega⟩
  have key : ∀ j : ℤ, 1 ≤ j → (convertNolltoBW j = .ok ((N : ℤ), m) ↔
      ∃ d : ℕ, d ≤ N ∧ 2 * j = N * (N + 1) + 2 + 2 * d ∧
        (if j % 2 > 0 then -(absM N d : ℤ) else absM N d) = m) := by
    intro j hj
    obtain ⟨n', d, hd, e⟩ := noll_row j hj
    constructor
    · intro hc
      rw [noll_spec n' d hd j e] at hc
      injection hc with hc
      have h1 : (n' : ℤ) = N := congrArg Prod.fst hc
      have h2 := congrArg Prod.snd hc
      have : n' = N := by exact_mod_cast h1
      subst this
      exact ⟨d, hd, e, h2⟩
    · rintro ⟨d', hd', e', hm⟩
      rw [noll_spec N d' hd' j e', hm]
  obtain ⟨T, hT⟩ : ∃ T : ℤ, (N : ℤ) * (N + 1) = 2 * T := by
    rcases Int.even_or_odd' (N : ℤ) with ⟨k, hk | hk⟩
    · exact ⟨k * (N + 1), by rw [hk]; ring⟩
    · exact ⟨N * (k + 1), by rw [hk]; ring⟩
  have hT0 : 0 ≤ T := by have : (0:ℤ) ≤ N * (N + 1) := by positivity
                         omega
  have habs : |m| = m ∨ |m| = -m := abs_choice m
  have habs0 := abs_nonneg m
  -- the offset within the row
  have hex : ∃ j : ℤ, 1 ≤ j ∧ convertNolltoBW j = .ok ((N : ℤ), m) := by
    by_cases hm0 : m = 0
    · refine ⟨T + 1, by omega, (key _ (by omega)).2 ⟨0, by omega, by omega, ?_⟩⟩
      have hab : absM N 0 = 0 := by unfold absM; rw [if_pos (by omega)]
      rw [hab, hm0]; simp
    · have ha : (m.natAbs : ℤ) = |m| := Int.natCast_natAbs m
      by_cases hpar : (if 0 < m then (T + 1 + m.natAbs) % 2 = 0 else (T + 1 + m.natAbs) % 2 = 1)
      · refine ⟨T + 1 + m.natAbs, by omega, (key _ (by omega)).2 ⟨m.natAbs, by omega, by omega, ?_⟩⟩
        unfold absM
        split_ifs at * <;> omega
      · refine ⟨T + m.natAbs, by omega, (key _ (by omega)).2 ⟨m.natAbs - 1, by omega, by omega, ?_⟩⟩
        unfold absM
        split_ifs at * <;> omega
  obtain ⟨j, hj1, hj⟩ := hex
  refine ⟨j, ⟨hj1, hj⟩, ?_⟩
  rintro j' ⟨hj1', hj'⟩
  obtain ⟨d, hd, e, hm⟩ := (key j hj1).1 hj
  obtain ⟨d', hd', e', hm'⟩ := (key j' hj1').1 hj'
  unfold absM at hm hm'
  split_ifs at hm hm' <;> omega

/-- C26: the Wyant numbering (from 0) is a bijection too. -/
theorem C26_wyant_bijective (n m : ℤ) (h : |m| ≤ n) (hp : (n - m) % 2 = 0) :
    ∃! j : ℤ, 0 ≤ j ∧ convertWyanttoBW j = .ok (n, m) := by
  obtain ⟨N, rfl⟩ : ∃ N : ℕ, n = N := ⟨n.toNat, by have := abs_nonneg m; omega⟩
  have row : ∀ j : ℤ, 0 ≤ j → ∃ s i : ℕ, i ≤ 2 * s ∧ j = ((s ^ 2 + i : ℕ) : ℤ) := by
    intro j hj
    obtain ⟨k, rfl⟩ : ∃ k : ℕ, j = k := ⟨j.toNat, by omega⟩
    refine ⟨k.sqrt, k - k.sqrt ^ 2, ?_, ?_⟩
    · have := Nat.sqrt_le_add k
      rw [sq]; omega
    · have := Nat.sqrt_le' k
      congr 1; omega
  have habs : |m| = m ∨ |m| = -m := abs_choice m
  have habs0 := abs_nonneg m
  have hex : ∃ s i : ℕ, i ≤ 2 * s ∧ ((s + i / 2 : ℕ) : ℤ) = N ∧
      (if i % 2 = 1 then -((s : ℤ) - (i / 2 : ℕ)) else (s : ℤ) - (i / 2 : ℕ)) = m := by
    by_cases hm : 0 ≤ m
    · refine ⟨(N + m.natAbs) / 2, 2 * ((N - m.natAbs) / 2), by omega, by omega, ?_⟩
      rw [if_neg (by omega)]; omega
    · refine ⟨(N + m.natAbs) / 2, 2 * ((N - m.natAbs) / 2) + 1, by omega, by omega, ?_⟩
      rw [if_pos (by omega)]; omega
  obtain ⟨s, i, hi, h1, h2⟩ := hex
  refine ⟨((s ^ 2 + i : ℕ) : ℤ), ⟨by positivity, by rw [wyant_spec s i hi, h1, h2]⟩, ?_⟩
  rintro j' ⟨hj0, hj'⟩
  obtain ⟨s', i', hi', rfl⟩ := row j' hj0
  rw [wyant_spec s' i' hi'] at hj'
  injection hj' with hj'
  have h1' := congrArg Prod.fst hj'
  have h2' := congrArg Prod.snd hj'
  simp only at h1' h2'
  have hs : s' = s ∧ i' = i := by
    split_ifs at h2 h2' <;> omega
  rw [hs.1, hs.2]

example : convertNolltoBW 11 = .ok (4, 0) := by
  rw [noll_spec 4 0 (by norm_num) 11 (by norm_num)]; simp [absM]
example : |(-3:ℤ)| ≤ 5 ∧ ((5:ℤ) - (-3)) % 2 = 0 := by decide

/-! ## C25: types of the basis fields -/

/-- C25: the 27 fields with ids 0..26 are labelled S and are curl free at every point. -/
theorem C25_curl_free (i : Nat) (h : i ≤ 26) : ∃ P Q : ℝ → ℝ → ℝ,
    (∀ x y, getZhaoBurgeTerm i x y = .ok (P x y, Q x y, .S)) ∧
    ∀ x y, ∃ d, HasDerivAt (fun t => P x t) d y ∧ HasDerivAt (fun t => Q t y) d x :=
  termS i h

/-- C25: the fields with ids 27..32 are labelled T and are divergence free. -/
theorem C25_divergence_free (i : Nat) (h : 27 ≤ i) (h' : i ≤ 32) : ∃ P Q : ℝ → ℝ → ℝ,
    (∀ x y, getZhaoBurgeTerm i x y = .ok (P x y, Q x y, .T)) ∧
    ∀ x y, ∃ d, HasDerivAt (fun t => P t y) d x ∧ HasDerivAt (fun t => Q x t) (-d) y :=
  termT i h h'

/-- C25: any other id ends the program. -/
theorem C25_unknown_id (i : Nat) (h : 33 ≤ i) (x y : ℝ) : getZhaoBurgeTerm i x y = .error (.sysExit 0) := by
  obtain ⟨k, rfl⟩ := Nat.exists_eq_add_of_le' h
  rfl

theorem term_known (i : Nat) (h : i < 33) (x y : ℝ) : ∃ p q k, getZhaoBurgeTerm i x y = .ok (p, q, k) := by
  by_cases hi : i ≤ 26
  · obtain ⟨P, Q, h, -⟩ := termS i hi; exact ⟨_, _, _, h x y⟩
  · obtain ⟨P, Q, h, -⟩ := termT i (by omega) (by omega); exact ⟨_, _, _, h x y⟩

theorem foldlM_sum {F : Nat → ℝ × ℝ} {x y : ℝ} (l : List (Nat × ℝ))
    (hF : ∀ e ∈ l, ∃ k, getZhaoBurgeTerm e.1 x y = .ok ((F e.1).1, (F e.1).2, k)) (s : ℝ × ℝ) :
    l.foldlM (fun (d : ℝ × ℝ) pc => do
      let t ← getZhaoBurgeTerm pc.1 x y
      return (d.1 + pc.2 * t.1, d.2 + pc.2 * t.2.1)) s =
    (.ok (s.1 + (l.map fun e : Nat × ℝ => e.2 * (F e.1).1).sum,
      s.2 + (l.map fun e : Nat × ℝ => e.2 * (F e.1).2).sum) : Except PyErr (ℝ × ℝ)) := by
  induction l generalizing s with
  | nil => simp [pure, Except.pure]
  | cons e l ih =>
    obtain ⟨k, hk⟩ := hF e (by simp)
    rw [List.foldlM_cons]
    simp only [hk, bind, Except.bind, pure, Except.pure]
    have ih' := ih (fun e' he' => hF e' (by simp [he'])) (s.1 + e.2 * (F e.1).1, s.2 + e.2 * (F e.1).2)
    simp only [bind, Except.bind, pure, Except.pure] at ih'
    rw [ih']
    simp only [List.map_cons, List.sum_cons]
    congr 2 <;> ring

/-- C25: the distortion is the sum of coefficient times field, so linear in the
coefficients (fields `F` are the values of the single terms at the point). -/
theorem C25_sum (ids : List Nat) (cs : List ℝ) (x y : ℝ) (F : Nat → ℝ × ℝ)
    (hF : ∀ i ∈ ids, ∃ k, getZhaoBurgeTerm i x y = .ok ((F i).1, (F i).2, k)) :
    getZhaoBurgeXY ids cs x y = .ok (((ids.zip cs).map fun e : Nat × ℝ => e.2 * (F e.1).1).sum,
      ((ids.zip cs).map fun e : Nat × ℝ => e.2 * (F e.1).2).sum) := by
  unfold getZhaoBurgeXY
  rw [foldlM_sum (F := F) (ids.zip cs) (fun e he => hF e.1 (List.of_mem_zip he).1) (0, 0)]
  simp

theorem fields_exist (ids : List Nat) (h : ∀ i ∈ ids, i < 33) (x y : ℝ) : ∃ F : Nat → ℝ × ℝ,
    ∀ i ∈ ids, ∃ k, getZhaoBurgeTerm i x y = .ok ((F i).1, (F i).2, k) := by
  have : ∀ i, ∃ p : ℝ × ℝ, i ∈ ids → ∃ k, getZhaoBurgeTerm i x y = .ok (p.1, p.2, k) := by
    intro i
    by_cases hi : i ∈ ids
    · obtain ⟨p, q, k, e⟩ := term_known i (h i hi) x y
      exact ⟨(p, q), fun _ => ⟨k, e⟩⟩
    · exact ⟨(0, 0), fun hh => absurd hh hi⟩
  choose F hF using this
  exact ⟨F, hF⟩

/-- C25: linear in the coefficients: two coefficient lists of equal length. -/
theorem C25_linear (ids : List Nat) (h : ∀ i ∈ ids, i < 33) (cs cs' : List ℝ) (hl : cs.length = cs'.length)
    (a b x y : ℝ) : ∃ d d' : ℝ × ℝ, getZhaoBurgeXY ids cs x y = .ok d ∧ getZhaoBurgeXY ids cs' x y = .ok d' ∧
      getZhaoBurgeXY ids (List.zipWith (fun c c' => a * c + b * c') cs cs') x y =
        .ok (a * d.1 + b * d'.1, a * d.2 + b * d'.2) := by
  obtain ⟨F, hF⟩ := fields_exist ids h x y
  refine ⟨_, _, C25_sum ids cs x y F hF, C25_sum ids cs' x y F hF, ?_⟩
  rw [C25_sum ids _ x y F hF]
  have key : ∀ (f : Nat → ℝ) (ids : List Nat) (cs cs' : List ℝ), cs.length = cs'.length →
      ((ids.zip (List.zipWith (fun c c' => a * c + b * c') cs cs')).map fun e : Nat × ℝ => e.2 * f e.1).sum =
      a * ((ids.zip cs).map fun e : Nat × ℝ => e.2 * f e.1).sum +
      b * ((ids.zip cs').map fun e : Nat × ℝ => e.2 * f e.1).sum := by
    intro f ids
    induction ids with
    | nil => simp
    | cons i ids ih =>
      intro cs cs' hl
      cases cs with
      | nil => cases cs' with
        | nil => simp
        | cons => simp at hl
      | cons c cs => cases cs' with
        | nil => simp at hl
        | cons c' cs' =>
          have := ih cs cs' (by simpa using hl)
          simp only [List.zipWith_cons_cons, List.zip_cons_cons, List.map_cons, List.sum_cons, this]
          ring
  rw [key (fun i => (F i).1) ids cs cs' hl, key (fun i => (F i).2) ids cs cs' hl]

/-- C25: coefficients that are all zero leave every point where it is. -/
theorem C25_zero (ids : List Nat) (h : ∀ i ∈ ids, i < 33) (k : Nat) (x y : ℝ) :
    getZhaoBurgeXY ids (List.replicate k 0) x y = .ok (0, 0) := by
  obtain ⟨F, hF⟩ := fields_exist ids h x y
  rw [C25_sum ids _ x y F hF]
  have key : ∀ (f : Nat → ℝ) (ids : List Nat) (k : Nat),
      ((ids.zip (List.replicate k (0:ℝ))).map fun e : Nat × ℝ => e.2 * f e.1).sum = 0 := by
    intro f ids
    induction ids with
    | nil => simp
    | cons i ids ih => intro k; cases k with
      | zero => simp
      | succ k => simp [List.replicate_succ, ih]
  rw [key (fun i => (F i).1), key (fun i => (F i).2)]

/-- C25: a whole distortion built from S-type ids is curl free. -/
theorem C25_distortion_curl_free (ids : List Nat) (h : ∀ i ∈ ids, i ≤ 26) (cs : List ℝ) : ∃ P Q : ℝ → ℝ → ℝ,
    (∀ x y, getZhaoBurgeXY ids cs x y = .ok (P x y, Q x y)) ∧
    ∀ x y, ∃ d, HasDerivAt (fun t => P x t) d y ∧ HasDerivAt (fun t => Q t y) d x := by
  have hP : ∀ i, ∃ PQ : (ℝ → ℝ → ℝ) × (ℝ → ℝ → ℝ), i ≤ 26 →
      (∀ x y, getZhaoBurgeTerm i x y = .ok (PQ.1 x y, PQ.2 x y, .S)) ∧
      ∀ x y, ∃ d, HasDerivAt (fun t => PQ.1 x t) d y ∧ HasDerivAt (fun t => PQ.2 t y) d x := by
    intro i
    by_cases hi : i ≤ 26
    · obtain ⟨P, Q, hh⟩ := termS i hi; exact ⟨(P, Q), fun _ => hh⟩
    · exact ⟨(fun _ _ => 0, fun _ _ => 0), fun hh => absurd hh hi⟩
  choose G hG using hP
  refine ⟨fun x y => ((ids.zip cs).map fun e : Nat × ℝ => e.2 * (G e.1).1 x y).sum,
    fun x y => ((ids.zip cs).map fun e : Nat × ℝ => e.2 * (G e.1).2 x y).sum, ?_, ?_⟩
  · intro x y
    exact C25_sum ids cs x y (fun i => ((G i).1 x y, (G i).2 x y)) fun i hi => ⟨.S, (hG i (h i hi)).1 x y⟩
  · intro x y
    have hz : ∀ e ∈ ids.zip cs, e.1 ≤ 26 := fun e he => h _ (List.of_mem_zip he).1
    revert hz
    generalize ids.zip cs = l
    intro hz
    induction l with
    | nil => exact ⟨0, by simpa using hasDerivAt_const y (0:ℝ), by simpa using hasDerivAt_const x (0:ℝ)⟩
    | cons e l ih =>
      obtain ⟨d, h1, h2⟩ := ih fun e' he' => hz e' (by simp [he'])
      obtain ⟨d', h1', h2'⟩ := (hG e.1 (hz e (by simp))).2 x y
      refine ⟨e.2 * d' + d, ?_, ?_⟩
      · simp only [List.map_cons, List.sum_cons]; exact (h1'.const_mul e.2).add h1
      · simp only [List.map_cons, List.sum_cons]; exact (h2'.const_mul e.2).add h2

/-- The default distortion ids of the code are known. -/
example : ∀ i ∈ [0,1,2,3,4,5,6,9,20,27,28,29,30], i < 33 := by decide
example : getZhaoBurgeTerm 2 0 1 = .ok (rh * getZ 2 0 1, rh * getZ 3 0 1, .S) := rfl

/-! ## C62: the distortion fit -/

/-- The distortion with coefficients `c` at a point (components as in the code). -/
def DistortsTo (ids : List Nat) (c : Fin ids.length → ℝ) (q : FitPt) : Prop :=
  getZhaoBurgeXY ids (List.ofFn c) q.x q.y = .ok (q.xp - q.x, q.yp - q.y)

theorem zip_ofFn_sum (ids : List Nat) (c : Fin ids.length → ℝ) (f : Nat → ℝ) :
    ((ids.zip (List.ofFn c)).map fun e : Nat × ℝ => e.2 * f e.1).sum = ∑ i, c i * f ids[i] := by
  induction ids with
  | nil => simp
  | cons a ids ih =>
    have := ih (fun i => c i.succ)
    simp only [List.length_cons] at *
    rw [Fin.sum_univ_succ, List.ofFn_succ]
    simp only [List.zip_cons_cons, List.map_cons, List.sum_cons]
    rw [this]
    simp

theorem xy_pred (ids : List Nat) (h : ∀ i ∈ ids, i < 33) (c : Fin ids.length → ℝ) (q : FitPt) :
    getZhaoBurgeXY ids (List.ofFn c) q.x q.y =
      .ok (pred (fitDesign ids) c (q, false), pred (fitDesign ids) c (q, true)) := by
  obtain ⟨F, hF⟩ := fields_exist ids h q.x q.y
  rw [C25_sum ids _ q.x q.y F hF, zip_ofFn_sum ids c (fun i => (F i).1), zip_ofFn_sum ids c (fun i => (F i).2)]
  unfold pred fitDesign
  congr 2
  · refine Finset.sum_congr rfl fun i _ => ?_
    obtain ⟨k, e⟩ := hF ids[i] (List.getElem_mem _)
    simp only [e]; simp
  · refine Finset.sum_congr rfl fun i _ => ?_
    obtain ⟨k, e⟩ := hF ids[i] (List.getElem_mem _)
    simp only [e]; simp

theorem any_known {ids : List Nat} (h : ∀ i ∈ ids, i < 33) : ids.any (33 ≤ ·) = false := by
  rw [List.any_eq_false]; intro i hi; simp [h i hi]

theorem rows_mem {l : List FitPt} {q : FitPt} {b : Bool} : (q, b) ∈ fitRows l ↔ q ∈ l := by
  unfold fitRows; cases b <;> simp

theorem rows_sum (l : List FitPt) (f : FitPt × Bool → ℝ) :
    ((fitRows l).map f).sum = (l.map fun q => f (q, false) + f (q, true)).sum := by
  unfold fitRows
  rw [List.map_append, List.sum_append, List.map_map, List.map_map, sum_map_add']
  rfl

/-- C62: the fit fails (singular matrix) exactly when some non-zero combination of
the chosen fields vanishes at every point. -/
theorem C62_solvable (ids : List Nat) (h : ∀ i ∈ ids, i < 33) (l : List FitPt) :
    (∃ c, fitZhaoBurge ids l = .ok c) ↔
      ¬ ∃ c : Fin ids.length → ℝ, c ≠ 0 ∧ ∀ q ∈ l, getZhaoBurgeXY ids (List.ofFn c) q.x q.y = .ok (0, 0) := by
  unfold fitZhaoBurge linSolve
  rw [any_known h]
  simp only [Bool.false_eq_true, if_false]
  have hs := gram_singular_iff (fitDesign ids) (fitRows l)
  have : (∃ v : Fin ids.length → ℝ, v ≠ 0 ∧ ∀ q ∈ fitRows l, pred (fitDesign ids) v q = 0) ↔
      ∃ c : Fin ids.length → ℝ, c ≠ 0 ∧ ∀ q ∈ l, getZhaoBurgeXY ids (List.ofFn c) q.x q.y = .ok (0, 0) := by
    refine exists_congr fun c => and_congr_right fun _ => ?_
    constructor
    · intro hc q hq
      rw [xy_pred ids h, hc _ (rows_mem.2 hq), hc _ (rows_mem.2 hq)]
    · rintro hc ⟨q, b⟩ hq
      have := hc q (rows_mem.1 hq)
      rw [xy_pred ids h] at this
      injection this with this
      cases b
      · exact congrArg Prod.fst this
      · exact congrArg Prod.snd this
  rw [← this, ← hs]
  by_cases hd : (gram (fitDesign ids) (fitRows l)).det = 0
  · simp [hd]
  · simp [hd]

/-- C62: if the second catalogue is the first one distorted by some coefficients,
the fit returns exactly those coefficients (whenever it returns). -/
theorem C62_exact (ids : List Nat) (h : ∀ i ∈ ids, i < 33) (l : List FitPt)
    (c c' : Fin ids.length → ℝ) (hc : ∀ q ∈ l, DistortsTo ids c q) (hf : fitZhaoBurge ids l = .ok c') :
    c' = c := by
  unfold fitZhaoBurge linSolve at hf
  rw [any_known h] at hf
  simp only [Bool.false_eq_true, if_false] at hf
  split_ifs at hf with hd
  injection hf with hf
  rw [← hf]
  refine solve_exact hd ?_
  rintro ⟨q, b⟩ hq
  have := hc q (rows_mem.1 hq)
  unfold DistortsTo at this
  rw [xy_pred ids h] at this
  injection this with this
  cases b
  · simpa [fitTarget] using (congrArg Prod.fst this).symm
  · simpa [fitTarget] using (congrArg Prod.snd this).symm

/-- Sum of squared distances left after the distortion `c` (`none` when an id is unknown). -/
noncomputable def residual (ids : List Nat) (c : Fin ids.length → ℝ) (l : List FitPt) : ℝ :=
  (l.map fun q => match getZhaoBurgeXY ids (List.ofFn c) q.x q.y with
    | .ok d => (q.xp - (q.x + d.1)) ^ 2 + (q.yp - (q.y + d.2)) ^ 2
    | .error _ => 0).sum

/-- C62: no coefficients leave a smaller sum of squared distances than the fitted ones. -/
theorem C62_optimal (ids : List Nat) (h : ∀ i ∈ ids, i < 33) (l : List FitPt)
    (c c' : Fin ids.length → ℝ) (hf : fitZhaoBurge ids l = .ok c') :
    residual ids c' l ≤ residual ids c l := by
  unfold fitZhaoBurge linSolve at hf
  rw [any_known h] at hf
  simp only [Bool.false_eq_true, if_false] at hf
  split_ifs at hf with hd
  injection hf with hf
  have e : ∀ c : Fin ids.length → ℝ, residual ids c l =
      ((fitRows l).map fun q => (fitTarget q - pred (fitDesign ids) c q) ^ 2).sum := by
    intro c
    unfold residual
    rw [rows_sum]
    congr 1
    refine List.map_congr_left fun q _ => ?_
    rw [xy_pred ids h]
    simp only [fitTarget]
    simp
    ring
  rw [e, e, ← hf]
  exact solve_optimal hd fitTarget c

/-- C62: an unknown id ends the program. -/
theorem C62_unknown_id (ids : List Nat) (i : Nat) (hi : i ∈ ids) (h : 33 ≤ i) (l : List FitPt) :
    fitZhaoBurge ids l = .error (.sysExit 0) := by
  unfold fitZhaoBurge
  rw [if_pos (List.any_eq_true.2 ⟨i, hi, by simpa using h⟩)]

/-- One point and the two translations: the fit returns, with the translation found. -/
example : ∃ c, fitZhaoBurge [0, 1] [⟨0, 0, 3, 4⟩] = .ok c := by
  rw [C62_solvable _ (by decide)]
  rintro ⟨c, hc, h⟩
  have := h ⟨0, 0, 3, 4⟩ (by simp)
  rw [C25_sum [0, 1] _ 0 0 (fun i => if i = 0 then (1, 0) else (0, 1)) ?_] at this
  · simp [List.ofFn_succ] at this
    exact hc (by funext i; fin_cases i <;> simp [this.1, this.2])
  · intro i hi
    simp only [List.mem_cons, List.not_mem_nil, or_false] at hi
    rcases hi with rfl | rfl
    · exact ⟨.S, by simp [getZhaoBurgeTerm, getZ_1, ev, Zp]⟩
    · exact ⟨.S, by simp [getZhaoBurgeTerm, getZ_1, ev, Zp]⟩

end Verif.Props
