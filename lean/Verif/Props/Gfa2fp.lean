import Verif.Model.Gfa2fp
import Verif.Props.SimpleCorr
import Verif.Props.Spotmatch

/-!
# C64: guide camera pixels and focal plane
-/

namespace Verif.Props.Gfa2fp
open Verif.Py Verif.Model.Gfa2fp Verif.Model.SimpleCorr Verif.Spec

/-! ### Specification -/

/-- The guide camera rows of a petal, in table order. -/
def gfaOf (met : List GRow) (p : ℤ) : List GRow := met.filter fun r => r.devType = "GFA".toList ∧ r.petal = p

/-- The metrology gives the four corners of the camera of petal `p`: `a`, `b`, `c`, `d` in order of
pinhole number, whatever the order of the table. -/
def Corners (met : List GRow) (p : ℤ) (a b c d : GRow) : Prop :=
  (gfaOf met p).Perm [a, b, c, d] ∧ a.pin < b.pin ∧ b.pin < c.pin ∧ c.pin < d.pin

/-- Every petal has all four corners or none. -/
def Complete (met : List GRow) : Prop :=
  ∀ p, 0 ≤ p → p < 10 → (gfaOf met p).length = 0 ∨ (gfaOf met p).length = 4

/-- The point of the sensor plane `o + gx u + gy v`. -/
def plane (o u v : ℝ × ℝ × ℝ) (g : ℝ × ℝ) : ℝ × ℝ × ℝ :=
  (o.1 + g.1 * u.1 + g.2 * v.1, o.2.1 + g.1 * u.2.1 + g.2 * v.2.1, o.2.2 + g.1 * u.2.2 + g.2 * v.2.2)

/-- The vector perpendicular to two vectors. -/
def normal (u v : ℝ × ℝ × ℝ) : ℝ × ℝ × ℝ :=
  (u.2.1 * v.2.2 - u.2.2 * v.2.1, u.2.2 * v.1 - u.1 * v.2.2, u.1 * v.2.1 - u.2.1 * v.1)

/-- `P` moved along `n` until it is 2.23 mm higher. -/
noncomputable def raised (P n : ℝ × ℝ × ℝ) : ℝ × ℝ × ℝ :=
  (P.1 + 2.23 / n.2.2 * n.1, P.2.1 + 2.23 / n.2.2 * n.2.1, P.2.2 + 2.23 / n.2.2 * n.2.2)

/-- Row `r` lies at the point `P`. -/
def At (r : GRow) (P : ℝ × ℝ × ℝ) : Prop := (r.x, r.y, r.z) = P

/-- The transform of a petal that the code ends up with. -/
noncomputable def transformOf (met : List GRow) (p : ℤ) : Except PyErr (Option Corr) := fitPetal (petalRows met p)

/-! ### Lemmas -/

theorem petalRows_perm (met : List GRow) (p : ℤ) : (petalRows met p).Perm (gfaOf met p) := by
  unfold petalRows gfaOf
  have h := (Lemmas.perm_pySort (fun r : GRow => r.pin) (met.filter fun r => r.devType = "GFA".toList)).filter
    (fun r : GRow => decide (r.petal = p))
  rw [List.filter_filter] at h
  have e : (fun r : GRow => decide (r.petal = p) && decide (r.devType = "GFA".toList)) =
      fun r => decide (r.devType = "GFA".toList ∧ r.petal = p) := by
    funext r; rw [Bool.decide_and, Bool.and_comm]
  rw [e] at h
  exact h

theorem petalRows_sorted (met : List GRow) (p : ℤ) : (petalRows met p).Pairwise fun a b => a.pin ≤ b.pin :=
  (Lemmas.sorted_pySort (fun r : GRow => r.pin) _).filter _

theorem petalRows_corners {met : List GRow} {p : ℤ} {a b c d : GRow} (h : Corners met p a b c d) :
    petalRows met p = [a, b, c, d] := by
  obtain ⟨hp, h1, h2, h3⟩ := h
  have hp' := (petalRows_perm met p).trans hp
  refine List.Perm.eq_of_pairwise (le := fun a b : GRow => a.pin ≤ b.pin) ?_ (petalRows_sorted met p) ?_ hp'
  · intro x y hx hy h4 h5
    have hx' := hp'.mem_iff.1 hx
    simp only [List.mem_cons, List.not_mem_nil, or_false] at hx' hy
    rcases hx' with rfl | rfl | rfl | rfl <;> rcases hy with rfl | rfl | rfl | rfl <;> first | rfl | omega
  · simp only [List.pairwise_cons, List.mem_cons, List.not_mem_nil, or_false, forall_eq_or_imp, forall_eq]
    refine ⟨⟨?_, ?_, ?_⟩, ⟨?_, ?_⟩, ?_, ?_, ?_⟩ <;> first | omega | simp

/-- The list of pairs that is fitted. -/
def pairs (a b c d : GRow) : List Pair :=
  [⟨0, 0, a.x, a.y⟩, ⟨2047, 0, b.x, b.y⟩, ⟨2047, 1031, c.x, c.y⟩, ⟨0, 1031, d.x, d.y⟩]

theorem not_onLine (a b c d : GRow) : ¬ OnLine (Lemmas.SimpleCorr.firsts (pairs a b c d)) := by
  rintro ⟨k, l, m, hne, h⟩
  have h1 := h (0, 0) (by simp [Lemmas.SimpleCorr.firsts, pairs])
  have h2 := h (2047, 0) (by simp [Lemmas.SimpleCorr.firsts, pairs])
  have h3 := h (0, 1031) (by simp [Lemmas.SimpleCorr.firsts, pairs])
  simp only at h1 h2 h3
  apply hne
  have e1 : k = 0 := by linarith
  have e2 : l = 0 := by linarith
  have e3 : m = 0 := by linarith
  simp [e1, e2, e3]

theorem decompose_error {r : ℝ} {ax ay : Fin 3 → ℝ} {e : PyErr} (h : decompose r ax ay = .error e) : e = .nanResult := by
  unfold decompose at h
  dsimp only at h
  split_ifs at h <;> cases h <;> rfl

theorem fit_error {l : List Pair} {e : PyErr} (hl : ¬ OnLine (Lemmas.SimpleCorr.firsts l)) (h : fit fresh l = .error e) :
    e = .nanResult := by
  have hd : (gram design3 l).det ≠ 0 := fun e => hl ((Lemmas.SimpleCorr.gram3_iff l).1 e)
  unfold fit linInv at h
  simp only [Bool.false_eq_true, if_false, bind, Except.bind, pure, Except.pure] at h
  rw [if_neg hd] at h
  dsimp only at h
  split at h
  · next hx => cases h; exact decompose_error hx
  · cases h

theorem fitPetal_def (a b c d : GRow) : fitPetal [a, b, c, d] = (match fit fresh (pairs a b c d) with
    | .error .nanResult => .ok none
    | .error e => .error e
    | .ok corr => .ok ((filterShift a b c).map fun s => { corr with dx := corr.dx + s.1, dy := corr.dy + s.2 }) :
      Except PyErr (Option Corr)) := rfl

theorem fitPetal_four (a b c d : GRow) : ∃ t, fitPetal [a, b, c, d] = .ok t := by
  rw [fitPetal_def]
  cases h : fit fresh (pairs a b c d) with
  | ok corr => exact ⟨_, rfl⟩
  | error e => rw [fit_error (not_onLine a b c d) h]; exact ⟨_, rfl⟩

theorem fitPetal_other {l : List GRow} (h : l.length ≠ 4) : fitPetal l = .error .assertionError := by
  match l with
  | [] => rfl
  | [_] => rfl
  | [_, _] => rfl
  | [_, _, _] => rfl
  | [_, _, _, _] => simp at h
  | _ :: _ :: _ :: _ :: _ :: _ => rfl

theorem fitPetal_length {l : List GRow} (h : l.length = 4) : ∃ t, fitPetal l = .ok t := by
  match l, h with
  | [a, b, c, d], _ => exact fitPetal_four a b c d

/-- The petals that are fitted. -/
def petals (met : List GRow) : List ℤ :=
  ((List.range 10).map fun (p : ℕ) => (p : ℤ)).filter fun p => petalRows met p ≠ []

theorem mem_petals (met : List GRow) (p : ℤ) : p ∈ petals met ↔ 0 ≤ p ∧ p < 10 ∧ gfaOf met p ≠ [] := by
  have e : petalRows met p ≠ [] ↔ gfaOf met p ≠ [] := by
    have := (petalRows_perm met p).length_eq
    rw [← List.length_pos_iff, ← List.length_pos_iff, this]
  unfold petals
  simp only [List.mem_filter, List.mem_map, List.mem_range, decide_eq_true_eq, e]
  constructor
  · rintro ⟨⟨n, h1, rfl⟩, h2⟩; exact ⟨by omega, by omega, h2⟩
  · rintro ⟨h1, h2, h3⟩; exact ⟨⟨p.toNat, by omega, by omega⟩, h3⟩

theorem get_map (f : ℤ → Option Corr) (ps : List ℤ) (p : ℤ) :
    Dict.get? (ps.map fun p => (p, f p)) p = if p ∈ ps then some (f p) else none := by
  induction ps with
  | nil => rfl
  | cons a l ih =>
    rw [List.map_cons]
    unfold Dict.get?
    by_cases h : a = p
    · subst h; simp
    · rw [if_neg h, ih]; simp [Ne.symm h]

/-- The value of a transform that was fitted. -/
noncomputable def valueOf (met : List GRow) (p : ℤ) : Option Corr :=
  match transformOf met p with
  | .ok c => c
  | .error _ => none

theorem fitGfa_ok {met : List GRow} (h : Complete met) :
    fitGfa met = .ok ((petals met).map fun p => (p, valueOf met p)) := by
  unfold fitGfa
  apply Lemmas.mapM_ok
  intro p hp
  obtain ⟨h1, h2, h3⟩ := (mem_petals met p).1 hp
  have h4 : (petalRows met p).length = 4 := by
    rw [(petalRows_perm met p).length_eq]
    rcases h p h1 h2 with h | h
    · exact absurd (List.length_eq_zero_iff.1 h) h3
    · exact h
  obtain ⟨t, ht⟩ := fitPetal_length h4
  unfold valueOf transformOf
  rw [ht]

theorem mapM_error {α β : Type} {f : α → Except PyErr β} {l : List α} {a : α} (ha : a ∈ l) {e : PyErr} (h : f a = .error e)
    (h' : ∀ b ∈ l, ∀ e', f b = .error e' → e' = e) : l.mapM f = .error e := by
  induction l with
  | nil => cases ha
  | cons b l ih =>
    rw [List.mapM_cons]
    cases hb : f b with
    | error e' => rw [h' b (by simp) e' hb]; rfl
    | ok v =>
      have : a ∈ l := by
        rcases List.mem_cons.1 ha with rfl | h2
        · rw [h] at hb; cases hb
        · exact h2
      have h3 := ih this fun b hb => h' b (by simp [hb])
      show (l.mapM f >>= _) = _
      rw [h3]; rfl

theorem apply_shift (c : Corr) (s : ℝ × ℝ) (x y : ℝ) :
    apply { c with dx := c.dx + s.1, dy := c.dy + s.2 } x y = ((apply c x y).1 + s.1, (apply c x y).2 + s.2) := by
  unfold apply
  ext
  · simp only; ring
  · simp only; ring

theorem sq_zero3 {a b c : ℝ} (h : Real.sqrt (a ^ 2 + b ^ 2 + c ^ 2) = 0) : a = 0 ∧ b = 0 ∧ c = 0 := by
  have h1 := (Real.sqrt_eq_zero (by positivity)).1 h
  have ha := sq_nonneg a
  have hb := sq_nonneg b
  have hc := sq_nonneg c
  refine ⟨?_, ?_, ?_⟩
  · exact pow_eq_zero_iff (two_ne_zero) |>.1 (by linarith)
  · exact pow_eq_zero_iff (two_ne_zero) |>.1 (by linarith)
  · exact pow_eq_zero_iff (two_ne_zero) |>.1 (by linarith)

/-- The edge vector. -/
def edge (a b : GRow) : ℝ × ℝ × ℝ := (b.x - a.x, b.y - a.y, b.z - a.z)

theorem filterShift_eq (a b c : GRow) : filterShift a b c =
    if (normal (edge a b) (edge b c)).2.2 = 0 then none
    else some (2.23 * (normal (edge a b) (edge b c)).1 / (normal (edge a b) (edge b c)).2.2,
      2.23 * (normal (edge a b) (edge b c)).2.1 / (normal (edge a b) (edge b c)).2.2) := by
  unfold filterShift unitEdge
  dsimp only
  by_cases h1 : Real.sqrt ((b.x - a.x) ^ 2 + (b.y - a.y) ^ 2 + (b.z - a.z) ^ 2) = 0
  · rw [if_pos h1, if_pos (c := (normal (edge a b) (edge b c)).2.2 = 0)]
    · rfl
    · obtain ⟨e1, e2, e3⟩ := sq_zero3 h1
      simp [normal, edge, e1, e2]
  · rw [if_neg h1]
    by_cases h2 : Real.sqrt ((c.x - b.x) ^ 2 + (c.y - b.y) ^ 2 + (c.z - b.z) ^ 2) = 0
    · rw [if_pos h2, if_pos (c := (normal (edge a b) (edge b c)).2.2 = 0)]
      · rfl
      · obtain ⟨e1, e2, e3⟩ := sq_zero3 h2
        simp [normal, edge, e1, e2]
    · rw [if_neg h2]
      generalize Real.sqrt ((b.x - a.x) ^ 2 + (b.y - a.y) ^ 2 + (b.z - a.z) ^ 2) = s at *
      generalize Real.sqrt ((c.x - b.x) ^ 2 + (c.y - b.y) ^ 2 + (c.z - b.z) ^ 2) = t at *
      have key : cross ((b.x - a.x) / s, (b.y - a.y) / s, (b.z - a.z) / s)
          ((c.x - b.x) / t, (c.y - b.y) / t, (c.z - b.z) / t) =
          ((normal (edge a b) (edge b c)).1 / (s * t), (normal (edge a b) (edge b c)).2.1 / (s * t),
            (normal (edge a b) (edge b c)).2.2 / (s * t)) := by
        unfold cross normal edge
        ext
        · simp only; field_simp
        · simp only; field_simp
        · simp only; field_simp
      show (if _ = _ then none else _) = _
      rw [key]
      dsimp only
      by_cases h3 : (normal (edge a b) (edge b c)).2.2 = 0
      · rw [if_pos h3, if_pos (by rw [h3]; simp)]
      · rw [if_neg h3, if_neg (by
          intro h4
          rcases div_eq_zero_iff.1 h4 with h5 | h5
          · exact h3 h5
          · rcases mul_eq_zero.1 h5 with h6 | h6
            · exact h1 h6
            · exact h2 h6)]
        congr 1
        ext
        · simp only; field_simp
        · simp only; field_simp

theorem gfa2fp_ok {met : List GRow} (h : Complete met) (cache : Option Transforms)
    (hc : cache = none ∨ cache = some ((petals met).map fun p => (p, valueOf met p))) (p : ℤ) (g : List (ℝ × ℝ)) :
    gfa2fp cache (.ok met) p g = ((if 0 ≤ p ∧ p < 10 ∧ gfaOf met p ≠ [] then
        .ok (g.map fun q => (valueOf met p).map fun c => apply c q.1 q.2) else .error .keyError),
      some ((petals met).map fun p => (p, valueOf met p))) ∧
    fp2gfa cache (.ok met) p g = ((if 0 ≤ p ∧ p < 10 ∧ gfaOf met p ≠ [] then
        .ok (g.map fun q => (valueOf met p).map fun c => applyInverse c q.1 q.2) else .error .keyError),
      some ((petals met).map fun p => (p, valueOf met p))) := by
  have hs : getTransforms cache (.ok met) = (.ok ((petals met).map fun p => (p, valueOf met p)),
      some ((petals met).map fun p => (p, valueOf met p))) := by
    unfold getTransforms
    rcases hc with rfl | rfl
    · dsimp only; rw [fitGfa_ok h]
    · rfl
  have hl : lookup ((petals met).map fun p => (p, valueOf met p)) p =
      if 0 ≤ p ∧ p < 10 ∧ gfaOf met p ≠ [] then .ok (valueOf met p) else .error .keyError := by
    unfold lookup
    rw [get_map]
    by_cases hp : 0 ≤ p ∧ p < 10 ∧ gfaOf met p ≠ []
    · rw [if_pos hp, if_pos ((mem_petals met p).2 hp)]
    · rw [if_neg hp, if_neg (fun h => hp ((mem_petals met p).1 h))]
  unfold gfa2fp fp2gfa
  simp only [hs]
  by_cases hp : 0 ≤ p ∧ p < 10 ∧ gfaOf met p ≠ []
  · simp only [if_pos hp, bind, Except.bind] at hl ⊢
    rw [hl]; exact ⟨rfl, rfl⟩
  · simp only [if_neg hp, bind, Except.bind] at hl ⊢
    rw [hl]; exact ⟨rfl, rfl⟩

/-! ### Theorems -/

/-- **C64** If the corners of a camera lie in a plane on the corners of a (possibly sheared)
rectangle (the height of the fourth does not matter), `gfa2fp` sends every pixel to the projection of its point in space moved along the normal
of the sensor until it is 2.23 mm higher, and `fp2gfa` undoes it. -/
theorem C64_exact (met : List GRow) (hm : Complete met) (p : ℤ) (hp : 0 ≤ p) (hp' : p < 10) (a b c d : GRow)
    (hc : Corners met p a b c d) (o u v : ℝ × ℝ × ℝ) (ha : At a (plane o u v (0, 0)))
    (hb : At b (plane o u v (2047, 0))) (hcc : At c (plane o u v (2047, 1031)))
    (hd : d.x = (plane o u v (0, 1031)).1 ∧ d.y = (plane o u v (0, 1031)).2.1) (hn : (normal u v).2.2 ≠ 0) (ht : u.1 + v.2.1 ≠ 0) :
    ∃ f : ℝ × ℝ → ℝ × ℝ,
      (∀ g, f g = ((raised (plane o u v g) (normal u v)).1, (raised (plane o u v g) (normal u v)).2.1)) ∧
      (∀ gs : List (ℝ × ℝ), (gfa2fp none (.ok met) p gs).1 = .ok (gs.map fun g => some (f g))) ∧
      (∀ gs : List (ℝ × ℝ), (fp2gfa none (.ok met) p (gs.map f)).1 = .ok (gs.map some)) := by
  refine ⟨fun g => ((raised (plane o u v g) (normal u v)).1, (raised (plane o u v g) (normal u v)).2.1), fun _ => rfl, ?_⟩
  have hrows := petalRows_corners hc
  unfold At plane at ha hb hcc
  unfold plane at hd
  simp only [Prod.mk.injEq] at ha hb hcc hd
  let m : Affine := ⟨o.1, o.2.1, u.1, v.1, u.2.1, v.2.1⟩
  have hex : ExactData m (pairs a b c d) := by
    intro q hq
    simp only [pairs, List.mem_cons, List.not_mem_nil, or_false] at hq
    rcases hq with rfl | rfl | rfl | rfl
    · simp only [Affine.app, m, ha.1, ha.2.1]; ext <;> ring
    · simp only [Affine.app, m, hb.1, hb.2.1]; ext <;> ring
    · simp only [Affine.app, m, hcc.1, hcc.2.1]; ext <;> ring
    · simp only [Affine.app, m, hd.1, hd.2]; ext <;> ring
  obtain ⟨cr, hf, hap, -, -⟩ := (C22_exact m (pairs a b c d) (not_onLine a b c d) hex).1 ht
  have hnorm : normal (edge a b) (edge b c) = (2047 * 1031 * (normal u v).1, 2047 * 1031 * (normal u v).2.1,
      2047 * 1031 * (normal u v).2.2) := by
    unfold normal edge
    rw [ha.1, ha.2.1, ha.2.2, hb.1, hb.2.1, hb.2.2, hcc.1, hcc.2.1, hcc.2.2]
    ext
    · simp only; ring
    · simp only; ring
    · simp only; ring
  have hshift : filterShift a b c = some (2.23 / (normal u v).2.2 * (normal u v).1, 2.23 / (normal u v).2.2 * (normal u v).2.1) := by
    rw [filterShift_eq, hnorm]
    dsimp only
    rw [if_neg (mul_ne_zero (by norm_num) hn)]
    congr 1
    ext
    · simp only; field_simp
    · simp only; field_simp
  let s : ℝ × ℝ := (2.23 / (normal u v).2.2 * (normal u v).1, 2.23 / (normal u v).2.2 * (normal u v).2.1)
  let cf : Corr := { cr with dx := cr.dx + s.1, dy := cr.dy + s.2 }
  have hval : valueOf met p = some cf := by
    unfold valueOf transformOf
    rw [hrows]
    rw [fitPetal_def, hf, hshift]
    rfl
  have hne : gfaOf met p ≠ [] := by
    intro h
    have := hc.1.length_eq
    rw [h] at this; simp at this
  have happ : ∀ g : ℝ × ℝ, apply cf g.1 g.2 =
      ((raised (plane o u v g) (normal u v)).1, (raised (plane o u v g) (normal u v)).2.1) := by
    intro g
    rw [apply_shift, hap]
    simp only [Affine.app, m, raised, plane, s]
    ext
    · simp only; ring
    · simp only; ring
  have hdet : cf.sxx * cf.syy - cf.sxy ^ 2 ≠ 0 := by
    have e0 := hap 0 0
    have e1 := hap 1 0
    have e2 := hap 0 1
    simp only [apply, rot2deg, Affine.app, m, Prod.mk.injEq] at e0 e1 e2
    have hcs : Verif.Model.Trig.cosd cr.rot_deg ^ 2 + Verif.Model.Trig.sind cr.rot_deg ^ 2 = 1 :=
      Lemmas.Trig.sq_cosd_sind _
    generalize Verif.Model.Trig.cosd cr.rot_deg = C at *
    generalize Verif.Model.Trig.sind cr.rot_deg = S at *
    have f1 : cr.sxx * C + cr.sxy * S = u.1 := by linarith [e1.1, e0.1]
    have f2 : cr.sxy * C + cr.syy * S = u.2.1 := by linarith [e1.2, e0.2]
    have f3 : -cr.sxx * S + cr.sxy * C = v.1 := by linarith [e2.1, e0.1]
    have f4 : -cr.sxy * S + cr.syy * C = v.2.1 := by linarith [e2.2, e0.2]
    have : cf.sxx * cf.syy - cf.sxy ^ 2 = (normal u v).2.2 := by
      show cr.sxx * cr.syy - cr.sxy ^ 2 = u.1 * v.2.1 - u.2.1 * v.1
      rw [← f1, ← f2, ← f3, ← f4]
      linear_combination (-(cr.sxx * cr.syy - cr.sxy ^ 2)) * hcs
    rw [this]; exact hn
  constructor
  · intro gs
    rw [(gfa2fp_ok hm none (Or.inl rfl) p gs).1, if_pos ⟨hp, hp', hne⟩, hval]
    simp only [Option.map_some, happ]
  · intro gs
    rw [(gfa2fp_ok hm none (Or.inl rfl) p _).2, if_pos ⟨hp, hp', hne⟩, hval]
    simp only [Option.map_some, List.map_map]
    congr 1
    apply List.map_congr_left
    intro g _
    simp only [Function.comp_apply]
    have h1 := (C21_inverse cf hdet g.1 g.2).1
    rw [happ] at h1
    exact congrArg some h1

/-- **C64** For any four corners the transform is the least-squares affine map of the four corners
(no affine map is closer), shifted by 2.23 mm times the slope of the plane through the first three
corners; it is NaN only if that plane is vertical or the fitted map has trace zero. -/
theorem C64_least_squares (a b c d : GRow) (cf : Corr) (h : fitPetal [a, b, c, d] = .ok (some cf)) :
    ∃ s : ℝ × ℝ, (normal (edge a b) (edge b c)).2.2 ≠ 0 ∧
      s.1 * (normal (edge a b) (edge b c)).2.2 = 2.23 * (normal (edge a b) (edge b c)).1 ∧
      s.2 * (normal (edge a b) (edge b c)).2.2 = 2.23 * (normal (edge a b) (edge b c)).2.1 ∧
      ∀ m : Affine, ((pairs a b c d).map fun q => sqDist (q.x2, q.y2) (apply cf q.x1 q.y1 - s)).sum ≤
        ((pairs a b c d).map fun q => sqDist (q.x2, q.y2) (m.app (q.x1, q.y1))).sum := by
  rw [fitPetal_def] at h
  split at h
  · cases h
  · cases h
  · next cr hf =>
    rw [filterShift_eq] at h
    split_ifs at h with h0
    · cases h
    · simp only [Option.map_some, Except.ok.injEq, Option.some.injEq] at h
      subst h
      refine ⟨(2.23 * (normal (edge a b) (edge b c)).1 / (normal (edge a b) (edge b c)).2.2,
          2.23 * (normal (edge a b) (edge b c)).2.1 / (normal (edge a b) (edge b c)).2.2), h0, ?_, ?_, fun m => ?_⟩
      rotate_left 2
      · refine le_of_eq_of_le ?_ ((C22_optimal (pairs a b c d) cr hf).2.1 m)
        congr 1
        apply List.map_congr_left
        intro q _
        rw [apply_shift cr (2.23 * (normal (edge a b) (edge b c)).1 / (normal (edge a b) (edge b c)).2.2,
          2.23 * (normal (edge a b) (edge b c)).2.1 / (normal (edge a b) (edge b c)).2.2)]
        congr 1
        exact (show _ - (_, _) = apply cr q.x1 q.y1 by ext <;> simp)
      · field_simp
      · field_simp

/-- **C64** With complete metrology a petal location without camera (or outside 0..9) raises
KeyError, any other does not. -/
theorem C64_missing (met : List GRow) (hm : Complete met) (p : ℤ) (g : List (ℝ × ℝ)) :
    ((0 ≤ p ∧ p < 10 ∧ gfaOf met p ≠ []) → ∃ v, (gfa2fp none (.ok met) p g).1 = .ok v ∧ v.length = g.length) ∧
    (¬ (0 ≤ p ∧ p < 10 ∧ gfaOf met p ≠ []) → (gfa2fp none (.ok met) p g).1 = .error .keyError ∧
      (fp2gfa none (.ok met) p g).1 = .error .keyError) := by
  obtain ⟨h1, h2⟩ := gfa2fp_ok hm none (Or.inl rfl) p g
  rw [h1, h2]
  constructor
  · intro h; rw [if_pos h]; exact ⟨_, rfl, by simp⟩
  · intro h; rw [if_neg h, if_neg h]; exact ⟨rfl, rfl⟩

/-- **C64** One petal with a number of corners other than four (or none) makes the call fail for
all petals. -/
theorem C64_incomplete (met : List GRow) (hm : ¬ Complete met) (p : ℤ) (g : List (ℝ × ℝ)) :
    gfa2fp none (.ok met) p g = (.error .assertionError, none) ∧
    fp2gfa none (.ok met) p g = (.error .assertionError, none) := by
  have hfit : fitGfa met = .error .assertionError := by
    unfold Complete at hm
    push Not at hm
    obtain ⟨k, h1, h2, h3, h4⟩ := hm
    have hk : k ∈ petals met := (mem_petals met k).2 ⟨h1, h2, fun h => h3 (by rw [h]; rfl)⟩
    unfold fitGfa
    refine mapM_error (a := k) hk ?_ ?_
    · rw [fitPetal_other (by rw [(petalRows_perm met k).length_eq]; exact h4)]
    · intro b _ e' he
      by_cases hl : (petalRows met b).length = 4
      · obtain ⟨t, ht⟩ := fitPetal_length hl
        rw [ht] at he; cases he
      · rw [fitPetal_other hl] at he; cases he; rfl
  unfold gfa2fp fp2gfa getTransforms
  simp only [hfit]
  exact ⟨rfl, rfl⟩

/-- **C64** After a first successful call the transforms are kept: later calls give the same
answers whatever the metrology file has become, even if it cannot be read any more. -/
theorem C64_cached (met : List GRow) (hm : Complete met) (load : Except PyErr (List GRow)) (p p' : ℤ) (g g' : List (ℝ × ℝ)) :
    gfa2fp (gfa2fp none (.ok met) p g).2 load p' g' = ((gfa2fp none (.ok met) p' g').1, (gfa2fp none (.ok met) p g).2) ∧
    fp2gfa (gfa2fp none (.ok met) p g).2 load p' g' = ((fp2gfa none (.ok met) p' g').1, (gfa2fp none (.ok met) p g).2) := by
  rw [(gfa2fp_ok hm none (Or.inl rfl) p g).1]
  unfold gfa2fp fp2gfa getTransforms
  simp only [fitGfa_ok hm]
  exact ⟨trivial, trivial⟩

/-! ### all_gfa2fp -/

theorem putMask_map (stars : List Star) (q : Star → Bool) (f : Star → Option (ℝ × ℝ)) : ∀ (out : List (Option (ℝ × ℝ))),
    out.length = stars.length →
    putMask (stars.map q) out ((stars.filter q).map f) =
      List.zipWith (fun s o => if q s then f s else o) stars out := by
  induction stars with
  | nil => intro out h; cases out with
    | nil => rfl
    | cons a l => simp at h
  | cons s stars ih =>
    intro out h
    cases out with
    | nil => simp at h
    | cons o out =>
      have h' : out.length = stars.length := by simpa using h
      cases hq : q s with
      | true => simp [List.filter_cons, hq, putMask, ih out h']
      | false => simp [List.filter_cons, hq, putMask, ih out h']

theorem zip_self (stars : List Star) (g : Star → Option (ℝ × ℝ)) (F : Star → Option (ℝ × ℝ) → Option (ℝ × ℝ)) :
    List.zipWith F stars (stars.map g) = stars.map fun s => F s (g s) := by
  induction stars with
  | nil => rfl
  | cons a l ih => simp [ih]

/-- The coordinates of a star. -/
noncomputable def starFp (met : List GRow) (s : Star) : Option (ℝ × ℝ) :=
  match (gfa2fp none (.ok met) s.petal [s.pix]).1 with
  | .ok [v] => v
  | _ => some (0, 0)

theorem starFp_eq {met : List GRow} (hm : Complete met) (s : Star) : starFp met s =
    if 0 ≤ s.petal ∧ s.petal < 10 ∧ gfaOf met s.petal ≠ [] then (valueOf met s.petal).map fun c => apply c s.pix.1 s.pix.2
    else some (0, 0) := by
  unfold starFp
  rw [(gfa2fp_ok hm none (Or.inl rfl) s.petal [s.pix]).1]
  by_cases h : 0 ≤ s.petal ∧ s.petal < 10 ∧ gfaOf met s.petal ≠ []
  · rw [if_pos h, if_pos h]; rfl
  · rw [if_neg h, if_neg h]

theorem fold_petals {met : List GRow} (hm : Complete met) (stars : List Star) : ∀ (ps done : List ℤ) (cache : Option Transforms),
    (cache = none ∨ cache = some ((petals met).map fun p => (p, valueOf met p))) →
    ((ps.foldl (petalStep (.ok met) stars) (.ok (stars.map fun s => if s.petal ∈ done then starFp met s else some (0, 0)), cache)).1 =
      .ok (stars.map fun s => if s.petal ∈ done ++ ps then starFp met s else some (0, 0))) := by
  intro ps
  induction ps with
  | nil => intro done cache _; simp
  | cons p ps ih =>
    intro done cache hc
    have hstep : petalStep (.ok met) stars (.ok (stars.map fun s => if s.petal ∈ done then starFp met s else some (0, 0)), cache) p =
        (.ok (stars.map fun s => if s.petal ∈ done ++ [p] then starFp met s else some (0, 0)),
          some ((petals met).map fun p => (p, valueOf met p))) := by
      unfold petalStep
      dsimp only
      rw [(gfa2fp_ok hm cache hc p _).1]
      dsimp only
      by_cases h : 0 ≤ p ∧ p < 10 ∧ gfaOf met p ≠ []
      · simp only [if_pos h]
        congr 2
        have e : (stars.filter fun s => decide (s.petal = p)).map (fun s => starFp met s) =
            ((stars.filter fun s => decide (s.petal = p)).map (·.pix)).map (fun q => (valueOf met p).map fun c => apply c q.1 q.2) := by
          rw [List.map_map]
          apply List.map_congr_left
          intro s hs
          have hs' : s.petal = p := by simpa using (List.mem_filter.1 hs).2
          rw [starFp_eq hm, hs', if_pos h]; rfl
        rw [← e, putMask_map _ _ _ _ (by simp), zip_self]
        apply List.map_congr_left
        intro s _
        by_cases h1 : s.petal = p
        · simp [h1]
        · simp [h1]
      · simp only [if_neg h]
        congr 2
        apply List.map_congr_left
        intro s _
        by_cases h1 : s.petal = p
        · have : starFp met s = some (0, 0) := by rw [starFp_eq hm, h1, if_neg h]
          simp [this]
        · simp [h1]
    rw [List.foldl_cons, hstep, ih (done ++ [p]) _ (Or.inr rfl)]
    simp

/-- **C64** `all_gfa2fp` gives every star the coordinates that `gfa2fp` gives for its own petal, in
the order of the input and independently of the other stars, and (0, 0) to stars on petals without
camera metrology. -/
theorem C64_all_petals (met : List GRow) (hm : Complete met) (stars : List Star) :
    ∃ out, (allGfa2fp none (.ok met) stars).1 = .ok out ∧ List.Forall₂ (fun s o =>
      ((0 ≤ s.petal ∧ s.petal < 10 ∧ gfaOf met s.petal ≠ []) → (gfa2fp none (.ok met) s.petal [s.pix]).1 = .ok [o]) ∧
      (¬ (0 ≤ s.petal ∧ s.petal < 10 ∧ gfaOf met s.petal ≠ []) → o = some (0, 0))) stars out := by
  refine ⟨stars.map (starFp met), ?_, ?_⟩
  · unfold allGfa2fp
    have := fold_petals hm stars (Verif.Model.Spotmatch.unique (stars.map (·.petal))) [] none (Or.inl rfl)
    simp only [List.not_mem_nil, if_false, List.nil_append] at this
    rw [this]
    congr 1
    apply List.map_congr_left
    intro s hs
    rw [if_pos]
    rw [Spotmatch.mem_unique]
    exact List.mem_map.2 ⟨s, hs, rfl⟩
  · rw [List.forall₂_map_right_iff, List.forall₂_same]
    intro s _
    rw [starFp_eq hm, (gfa2fp_ok hm none (Or.inl rfl) s.petal [s.pix]).1]
    refine ⟨fun h => ?_, fun h => by rw [if_neg h]⟩
    rw [if_pos h, if_pos h]; rfl

/-! ### Examples -/

/-- Corners of a tilted camera with 15 micron pixels rotated about the axis. -/
def demo : List GRow :=
  let c (pin : ℤ) (gx gy : ℝ) : GRow :=
    ⟨"GFA".toList, 3, pin, 10 + gx * 0.012 - gy * 0.009, 20 + gx * 0.009 + gy * 0.012, 5 + gx * 0.001⟩
  [c 2 2047 0, c 1 0 0, ⟨"POS".toList, 3, 0, 1, 2, 3⟩, c 4 0 1031, c 3 2047 1031]

example : Complete demo ∧ ∃ a b c d : GRow, ∃ o u v : ℝ × ℝ × ℝ, Corners demo 3 a b c d ∧ At a (plane o u v (0, 0)) ∧
    At b (plane o u v (2047, 0)) ∧ At c (plane o u v (2047, 1031)) ∧ At d (plane o u v (0, 1031)) ∧
    (normal u v).2.2 ≠ 0 ∧ u.1 + v.2.1 ≠ 0 ∧ (normal u v).1 ≠ 0 := by
  have hg : ∀ p, p ≠ 3 → gfaOf demo p = [] := by
    intro p hp
    unfold gfaOf
    rw [List.filter_eq_nil_iff]
    intro r hr
    have : r.petal = 3 := by
      simp only [demo, List.mem_cons, List.not_mem_nil, or_false] at hr
      rcases hr with rfl | rfl | rfl | rfl | rfl <;> rfl
    simp [this, Ne.symm hp]
  have h3 : gfaOf demo 3 = [demo[0], demo[1], demo[3], demo[4]] := by
    simp [gfaOf, demo]
  constructor
  · intro p _ _
    by_cases hp : p = 3
    · subst hp; right; rw [h3]; rfl
    · left; rw [hg p hp]; rfl
  · refine ⟨demo[1], demo[0], demo[4], demo[3], (10, 20, 5), (0.012, 0.009, 0.001), (-0.009, 0.012, 0), ⟨?_, ?_, ?_, ?_⟩,
      ?_, ?_, ?_, ?_, ?_, ?_, ?_⟩
    · rw [h3]
      refine (List.Perm.swap _ _ _).trans ?_
      exact ((List.Perm.swap _ _ _).cons _).cons _
    · show (1 : ℤ) < 2; norm_num
    · show (2 : ℤ) < 3; norm_num
    · show (3 : ℤ) < 4; norm_num
    · unfold At plane demo; ext <;> simp
    · unfold At plane demo; ext <;> simp
    · unfold At plane demo; ext <;> simp <;> ring
    · unfold At plane demo; ext <;> simp <;> ring
    · norm_num [normal]
    · norm_num
    · norm_num [normal]

example : ¬ Complete [⟨"GFA".toList, 3, 1, 0, 0, 0⟩] := by
  intro h
  have := h 3 (by norm_num) (by norm_num)
  simp [gfaOf] at this

end Verif.Props.Gfa2fp
