import Verif.Model.RayTrace
import Mathlib.Tactic.LinearCombination
import Mathlib.Tactic.Linarith
import Mathlib.Tactic.FieldSimp
import Mathlib.Tactic.NormNum
import Mathlib.Tactic.Positivity

/-!
# C89: where a ray meets a surface of the ray tracer
-/

namespace Verif.Props.RayConic

open Verif.Py Verif.RayTrace

/-! ## Specification -/

/-- The quadric of curvature `c` and asphericity `a` through the origin. -/
def Quadric (c a : ℝ) (p : V3) : Prop :=
  c * (p.x ^ 2 + p.y ^ 2 + (1 + a) * p.z ^ 2) = 2 * p.z

/-- The optical surface: the graph of the sag `c r² / (1 + √(1 - (1+a) c² r²))` over the disk
where the root is positive. -/
def OnSag (c a : ℝ) (p : V3) : Prop :=
  0 < 1 - (1 + a) * c ^ 2 * (p.x ^ 2 + p.y ^ 2) ∧
    p.z = c * (p.x ^ 2 + p.y ^ 2) /
      (1 + Real.sqrt (1 - (1 + a) * c ^ 2 * (p.x ^ 2 + p.y ^ 2)))

/-- `d` is the distance of the first crossing of the surface ahead on the ray. -/
def FirstCrossing (c a : ℝ) (r : Ray) (d : ℝ) : Prop :=
  0 < d ∧ OnSag c a (along r d) ∧ ∀ e, 0 < e → e < d → ¬ OnSag c a (along r e)

/-- Coefficients of the distance in the equation of the quadric along the ray. -/
def quadA (c a : ℝ) (r : Ray) : ℝ := c * (r.dir.x ^ 2 + r.dir.y ^ 2 + (1 + a) * r.dir.z ^ 2)
/-- Linear coefficient. -/
def quadB (c a : ℝ) (r : Ray) : ℝ :=
  2 * c * (r.pos.x * r.dir.x + r.pos.y * r.dir.y + (1 + a) * r.pos.z * r.dir.z) - 2 * r.dir.z
/-- Constant coefficient. -/
def quadC (c a : ℝ) (r : Ray) : ℝ :=
  c * (r.pos.x ^ 2 + r.pos.y ^ 2 + (1 + a) * r.pos.z ^ 2) - 2 * r.pos.z

/-! ## The roots -/

/-- **C89** (roots). Unless the linear coefficient vanishes and the quadratic one does not,
and unless the discriminant is zero, the nonzero numbers returned by `getBothRoots` are
exactly the nonzero roots of the quadratic. -/
theorem C89_roots (A B C d : ℝ) (h1 : B = 0 → A = 0) (h2 : B * B - 4 * A * C ≠ 0) (hd : d ≠ 0) :
    (d = (getBothRoots A B C).1 ∨ d = (getBothRoots A B C).2) ↔ A * d ^ 2 + B * d + C = 0 := by
  unfold getBothRoots
  by_cases hA : A = 0
  · subst hA
    have hB : B ≠ 0 := by
      intro h; subst h; simp at h2
    rw [if_pos ⟨rfl, hB⟩]
    simp only [hd, or_false]
    rw [eq_div_iff hB]
    constructor <;> intro h <;> linarith
  · have hB : B ≠ 0 := fun h => hA (h1 h)
    rw [if_neg (by tauto), if_neg (by tauto)]
    by_cases hC : C = 0
    · subst hC
      rw [if_pos ⟨rfl, hA⟩]
      simp only [hd, or_false]
      rw [eq_div_iff hA]
      constructor
      · intro h; linear_combination d * h
      · intro h
        have : d * (d * A + B) = 0 := by linear_combination h
        rcases mul_eq_zero.1 this with h | h
        · exact absurd h hd
        · linarith
    · rw [if_neg (by tauto)]
      dsimp only
      split_ifs with hD
      · simp only [hd, or_self, false_iff]
        intro h
        have hlt : B * B - 4 * A * C < 0 := lt_of_le_of_ne hD h2
        have : (2 * A * d + B) ^ 2 = B * B - 4 * A * C := by linear_combination 4 * A * h
        nlinarith [sq_nonneg (2 * A * d + B)]
      · push Not at hD
        set D := B * B - 4 * A * C with hDdef
        set q := Real.sqrt D with hq
        have hqq : q * q = D := Real.mul_self_sqrt hD.le
        have hqpos : 0 < q := Real.sqrt_pos.2 hD
        have hs : sign B * sign B = 1 := by
          unfold sign
          rcases lt_trichotomy B 0 with h | h | h
          · simp [h]
          · exact absurd h hB
          · simp [h, not_lt.2 h.le]
        have hsB : sign B * B = |B| := by
          unfold sign
          rcases lt_trichotomy B 0 with h | h | h
          · simp [h, abs_of_neg h]
          · exact absurd h hB
          · simp [h, not_lt.2 h.le, abs_of_pos h]
        set σ := sign B with hσ
        set Q := -0.5 * (B + σ * q) with hQ
        have hQ2 : σ * Q = -0.5 * (|B| + q) := by
          rw [hQ]; linear_combination (-0.5) * hsB - 0.5 * q * hs
        have hQ0 : Q ≠ 0 := by
          intro h
          rw [h] at hQ2
          have := abs_nonneg B
          norm_num at hQ2
          linarith
        -- Q² + B Q + A C = 0
        have hQeq : Q ^ 2 + B * Q + A * C = 0 := by
          rw [hQ]; linear_combination (1/4) * q * q * hs + (1/4) * hqq + (1/4) * hDdef
        rw [eq_div_iff hA, eq_div_iff hQ0]
        constructor
        · rintro (h | h)
          · have h3 : A * (A * d ^ 2 + B * d + C) = 0 := by
              have : A * d = Q := by linarith
              linear_combination (A * d + Q + B) * this + hQeq
            exact (mul_eq_zero.1 h3).resolve_left hA
          · have h3 : Q * Q * (A * d ^ 2 + B * d + C) = 0 := by
              linear_combination (A * (d * Q + C) + B * Q) * h + C * hQeq
            exact (mul_eq_zero.1 h3).resolve_left (mul_ne_zero hQ0 hQ0)
        · intro h
          have h3 : (d * A - Q) * (d * Q - C) = 0 := by
            linear_combination Q * h - d * hQeq
          rcases mul_eq_zero.1 h3 with h | h
          · left; linarith
          · right; linarith

/-- Hypotheses met: `d² - 3 d + 2` has the roots 1 and 2. -/
example : ((-3 : ℝ) = 0 → (1 : ℝ) = 0) ∧ ((-3 : ℝ) * (-3) - 4 * 1 * 2 ≠ 0) ∧ (2 : ℝ) ≠ 0 := by
  norm_num

/-- **C89** (finding). When the linear coefficient is zero and the other two are not, no
nonzero number returned is a root, and no root is returned: the sign of `C/A` is wrong. -/
theorem C89_no_linear (A C : ℝ) (hA : A ≠ 0) (hC : C ≠ 0) (d : ℝ) (hd : d ≠ 0) :
    (d = (getBothRoots A 0 C).1 ∨ d = (getBothRoots A 0 C).2) → A * d ^ 2 + 0 * d + C ≠ 0 := by
  unfold getBothRoots
  rw [if_neg (by tauto), if_pos ⟨rfl, hA⟩]
  split_ifs with h
  · have hs := Real.mul_self_sqrt h.le
    intro h' h0
    have hdd : d ^ 2 = C / A := by
      rcases h' with rfl | rfl
      · rw [sq]; exact hs
      · rw [neg_sq, sq]; exact hs
    rw [hdd] at h0
    field_simp at h0
    apply hC
    linarith
  · rintro (h' | h') <;> exact absurd h' hd

example : (1 : ℝ) ≠ 0 ∧ (-1 : ℝ) ≠ 0 := by norm_num

/-! ## The surface -/

/-- The sheet of the quadric kept by the code is the graph of the sag. -/
theorem onSag_iff (c a : ℝ) (p : V3) :
    OnSag c a p ↔ Quadric c a p ∧ (1 + a) * c * p.z < 1 := by
  unfold OnSag Quadric
  set R := p.x ^ 2 + p.y ^ 2 with hR
  set K := 1 + a with hK
  constructor
  · rintro ⟨h0, hz⟩
    have hq0 := Real.sqrt_pos.2 h0
    have hq := Real.mul_self_sqrt h0.le
    set q := Real.sqrt (1 - K * c ^ 2 * R) with hqdef
    have h1 : p.z * (1 + q) = c * R := by
      rw [hz]; field_simp
    have h2 : K * c * p.z = 1 - q := by
      have : (1 + q) * (K * c * p.z - (1 - q)) = 0 := by
        linear_combination K * c * h1 + hq
      rcases mul_eq_zero.1 this with h | h
      · linarith
      · linarith
    refine ⟨?_, by linarith⟩
    have h3 : c * R = p.z * (2 - K * c * p.z) := by rw [h2]; linear_combination -h1
    linear_combination h3
  · rintro ⟨hQ, hs⟩
    have hpos : 0 < 1 - K * c * p.z := by linarith
    have hsq : 1 - K * c ^ 2 * R = (1 - K * c * p.z) ^ 2 := by
      linear_combination (-(K * c)) * hQ
    have h0 : 0 < 1 - K * c ^ 2 * R := by rw [hsq]; positivity
    refine ⟨h0, ?_⟩
    rw [hsq, Real.sqrt_sq hpos.le, eq_div_iff (by linarith)]
    linear_combination -hQ

/-- Along a ray the quadric is the quadratic with the coefficients of the code. -/
theorem quadric_along (c a : ℝ) (r : Ray) (d : ℝ) :
    Quadric c a (along r d) ↔ quadA c a r * d ^ 2 + quadB c a r * d + quadC c a r = 0 := by
  unfold Quadric along quadA quadB quadC
  constructor <;> intro h <;> linear_combination h

/-- Selection of the distance in `conicIntercept`, as a statement about the two roots. -/
theorem select (P Sh : ℝ → Prop) (r1 r2 : ℝ)
    (hP : ∀ d, d ≠ 0 → ((d = r1 ∨ d = r2) ↔ P d)) :
    (∃ d, 0 < d ∧ P d ∧ Sh d) ↔ (0 < min r1 r2 ∧ Sh (min r1 r2)) ∨ (0 < max r1 r2 ∧ Sh (max r1 r2)) := by
  constructor
  · rintro ⟨d, h0, hp, hs⟩
    rcases (hP d h0.ne').2 hp with rfl | rfl
    · rcases le_total d r2 with h | h
      · left; rw [min_eq_left h]; exact ⟨h0, hs⟩
      · right; rw [max_eq_left h]; exact ⟨h0, hs⟩
    · rcases le_total r1 d with h | h
      · right; rw [max_eq_right h]; exact ⟨h0, hs⟩
      · left; rw [min_eq_right h]; exact ⟨h0, hs⟩
  · rintro (⟨h0, hs⟩ | ⟨h0, hs⟩)
    · refine ⟨_, h0, (hP _ h0.ne').1 ?_, hs⟩
      rcases min_choice r1 r2 with h | h <;> rw [h] <;> simp
    · refine ⟨_, h0, (hP _ h0.ne').1 ?_, hs⟩
      rcases max_choice r1 r2 with h | h <;> rw [h] <;> simp

/-- The distance chosen by `conicIntercept`. -/
noncomputable def pick (S : Surf) (r : Ray) : ℝ :=
  let roots := getBothRoots (quadA S.curve S.asph r) (quadB S.curve S.asph r)
    (quadC S.curve S.asph r)
  let lo := min roots.1 roots.2
  let hi := max roots.1 roots.2
  if (S.asph + 1) * S.curve * (r.pos.z + r.dir.z * lo) < 1 ∧ 0 < lo then lo
  else if (S.asph + 1) * S.curve * (r.pos.z + r.dir.z * hi) < 1 ∧ 0 < hi then hi
  else 0

theorem conic_eq (S : Surf) (r : Ray) :
    conicIntercept S r =
      (let roots := getBothRoots (quadA S.curve S.asph r) (quadB S.curve S.asph r)
        (quadC S.curve S.asph r)
       if max roots.1 roots.2 ≤ 0 ∧ min roots.1 roots.2 < 0 then (.BACK, r)
       else if pick S r ≤ 0 then (.MISS, r)
       else (.OK, { r with pos := along r (pick S r) })) := by
  have hA : S.curve * (r.dir.x * r.dir.x + r.dir.y * r.dir.y
      + (S.asph + 1) * r.dir.z * r.dir.z) = quadA S.curve S.asph r := by
    unfold quadA; ring
  have hB : 2 * S.curve * (r.pos.x * r.dir.x + r.pos.y * r.dir.y
      + (S.asph + 1) * r.pos.z * r.dir.z) - 2 * r.dir.z = quadB S.curve S.asph r := by
    unfold quadB; ring
  have hC : S.curve * (r.pos.x * r.pos.x + r.pos.y * r.pos.y
      + (S.asph + 1) * r.pos.z * r.pos.z) - 2 * r.pos.z = quadC S.curve S.asph r := by
    unfold quadC; ring
  unfold conicIntercept pick
  dsimp only
  rw [hA, hB, hC]

theorem conic_ok_iff (S : Surf) (r r' : Ray) :
    conicIntercept S r = (.OK, r') ↔
      0 < pick S r ∧ r' = { r with pos := along r (pick S r) } := by
  rw [conic_eq]
  dsimp only
  have hpick : max (getBothRoots (quadA S.curve S.asph r) (quadB S.curve S.asph r)
        (quadC S.curve S.asph r)).1 (getBothRoots (quadA S.curve S.asph r) (quadB S.curve S.asph r)
        (quadC S.curve S.asph r)).2 ≤ 0 → pick S r ≤ 0 := by
    intro h
    unfold pick
    dsimp only
    split_ifs with h1 h2
    · exact (min_le_max).trans h
    · exact h
    · exact le_refl _
  split_ifs with h1 h2
  · simp only [Prod.mk.injEq, reduceCtorEq, false_and, false_iff, not_and]
    intro h
    exact absurd (hpick h1.1) (not_le.2 h)
  · simp only [Prod.mk.injEq, reduceCtorEq, false_and, false_iff, not_and]
    intro h
    exact absurd h2 (not_le.2 h)
  · push Not at h2
    simp only [Prod.mk.injEq, true_and, h2]
    exact eq_comm

/-- The general position of the theorems below: the quadratic along the ray is not one of the
two special cases that `getBothRoots` gets wrong or refuses. -/
def General (c a : ℝ) (r : Ray) : Prop :=
  (quadB c a r = 0 → quadA c a r = 0) ∧
    quadB c a r * quadB c a r - 4 * quadA c a r * quadC c a r ≠ 0

theorem pick_iff (S : Surf) (r : Ray) (h : General S.curve S.asph r) (d : ℝ) (hd : 0 < d) :
    pick S r = d ↔ FirstCrossing S.curve S.asph r d := by
  have hroot : ∀ e, e ≠ 0 → ((e = (getBothRoots (quadA S.curve S.asph r) (quadB S.curve S.asph r)
      (quadC S.curve S.asph r)).1 ∨ e = (getBothRoots (quadA S.curve S.asph r)
      (quadB S.curve S.asph r) (quadC S.curve S.asph r)).2) ↔
      Quadric S.curve S.asph (along r e)) := fun e he => by
    rw [quadric_along]; exact C89_roots _ _ _ _ h.1 h.2 he
  have hsag : ∀ e, OnSag S.curve S.asph (along r e) ↔ Quadric S.curve S.asph (along r e) ∧
      (S.asph + 1) * S.curve * (r.pos.z + r.dir.z * e) < 1 := fun e => by
    rw [onSag_iff]
    have : (along r e).z = r.pos.z + r.dir.z * e := by unfold along; dsimp only; ring
    rw [this, add_comm 1 S.asph]
  unfold pick
  generalize getBothRoots (quadA S.curve S.asph r) (quadB S.curve S.asph r)
      (quadC S.curve S.asph r) = rt at hroot
  obtain ⟨r1, r2⟩ := rt
  dsimp only at hroot ⊢
  have hlo : min r1 r2 = r1 ∨ min r1 r2 = r2 := min_choice r1 r2
  have hhi : max r1 r2 = r1 ∨ max r1 r2 = r2 := max_choice r1 r2
  have hb : ∀ e, (e = r1 ∨ e = r2) → e = min r1 r2 ∨ e = max r1 r2 := by
    rintro e (rfl | rfl)
    · rcases le_total e r2 with h | h
      · left; rw [min_eq_left h]
      · right; rw [max_eq_left h]
    · rcases le_total r1 e with h | h
      · right; rw [max_eq_right h]
      · left; rw [min_eq_right h]
  have hlohi : min r1 r2 ≤ max r1 r2 := min_le_max
  set lo := min r1 r2
  set hi := max r1 r2
  have hqlo : 0 < lo → Quadric S.curve S.asph (along r lo) := fun h0 =>
    (hroot lo h0.ne').1 hlo
  have hqhi : 0 < hi → Quadric S.curve S.asph (along r hi) := fun h0 =>
    (hroot hi h0.ne').1 hhi
  unfold FirstCrossing
  split_ifs with h1 h2
  · constructor
    · rintro rfl
      refine ⟨hd, (hsag _).2 ⟨hqlo hd, h1.1⟩, ?_⟩
      intro e he hed hs
      rcases hb e ((hroot e he.ne').2 ((hsag e).1 hs).1) with h | h
      · exact absurd h hed.ne
      · rw [h] at hed; exact absurd hed (not_lt.2 hlohi)
    · rintro ⟨_, hs, hmin⟩
      have hle : d ≤ lo := by
        by_contra hcon
        push Not at hcon
        exact hmin lo h1.2 hcon ((hsag _).2 ⟨hqlo h1.2, h1.1⟩)
      rcases hb d ((hroot d hd.ne').2 ((hsag d).1 hs).1) with h | h
      · exact h.symm
      · rw [h] at hle; rw [h]; exact le_antisymm hlohi hle
  · constructor
    · rintro rfl
      refine ⟨hd, (hsag _).2 ⟨hqhi hd, h2.1⟩, ?_⟩
      intro e he hed hs
      rcases hb e ((hroot e he.ne').2 ((hsag e).1 hs).1) with h | h
      · exact h1 ⟨h ▸ ((hsag e).1 hs).2, h ▸ he⟩
      · exact absurd h hed.ne
    · rintro ⟨_, hs, hmin⟩
      rcases hb d ((hroot d hd.ne').2 ((hsag d).1 hs).1) with h | h
      · exact absurd ⟨h ▸ ((hsag d).1 hs).2, h ▸ hd⟩ h1
      · exact h.symm
  · constructor
    · intro h0; exact absurd h0 hd.ne
    · rintro ⟨_, hs, _⟩
      rcases hb d ((hroot d hd.ne').2 ((hsag d).1 hs).1) with h | h
      · exact absurd ⟨h ▸ ((hsag d).1 hs).2, h ▸ hd⟩ h1
      · exact absurd ⟨h ▸ ((hsag d).1 hs).2, h ▸ hd⟩ h2

theorem first_unique (c a : ℝ) (r : Ray) (d e : ℝ) (hd : FirstCrossing c a r d)
    (he : FirstCrossing c a r e) : d = e := by
  rcases lt_trichotomy d e with h | h | h
  · exact absurd hd.2.1 (he.2.2 d hd.1 h)
  · exact h
  · exact absurd he.2.1 (hd.2.2 e he.1 h)

/-- **C89** (hit). In general position a ray hits a conic surface exactly when it meets the
graph of the sag ahead; the ray is then moved to the first such point and keeps its
direction. -/
theorem C89_hit (S : Surf) (r r' : Ray) (h : General S.curve S.asph r) :
    conicIntercept S r = (.OK, r') ↔
      ∃ d, FirstCrossing S.curve S.asph r d ∧ r' = ⟨along r d, r.dir⟩ := by
  rw [conic_ok_iff]
  constructor
  · rintro ⟨h0, rfl⟩
    exact ⟨_, (pick_iff S r h _ h0).1 rfl, rfl⟩
  · rintro ⟨d, hd, rfl⟩
    have := (pick_iff S r h d hd.1).2 hd
    rw [this]
    exact ⟨hd.1, rfl⟩

/-- **C89** (lost). In general position a ray is lost exactly when it does not meet the surface
ahead, and it is then left where it was. -/
theorem C89_lost (S : Surf) (r : Ray) (h : General S.curve S.asph r) :
    (conicIntercept S r).1 ≠ .OK ↔ ∀ d, 0 < d → ¬ OnSag S.curve S.asph (along r d) := by
  constructor
  · intro hne d hd hs
    -- there is a first crossing: the chosen distance, or contradiction
    have hnp : ¬ 0 < pick S r := by
      intro h0
      apply hne
      rw [(conic_ok_iff S r { r with pos := along r (pick S r) }).2 ⟨h0, rfl⟩]
    apply hnp
    have hroot : ∀ e, e ≠ 0 → ((e = (getBothRoots (quadA S.curve S.asph r)
        (quadB S.curve S.asph r) (quadC S.curve S.asph r)).1 ∨ e = (getBothRoots
        (quadA S.curve S.asph r) (quadB S.curve S.asph r) (quadC S.curve S.asph r)).2) ↔
        Quadric S.curve S.asph (along r e)) := fun e he => by
      rw [quadric_along]; exact C89_roots _ _ _ _ h.1 h.2 he
    have hz : (along r d).z = r.pos.z + r.dir.z * d := by unfold along; dsimp only; ring
    have hq := (onSag_iff _ _ _).1 hs
    rw [hz, add_comm 1 S.asph] at hq
    have := (select (fun e => Quadric S.curve S.asph (along r e))
      (fun e => (S.asph + 1) * S.curve * (r.pos.z + r.dir.z * e) < 1) _ _ hroot).1
      ⟨d, hd, hq.1, hq.2⟩
    unfold pick
    dsimp only
    split_ifs with h1 h2
    · exact h1.2
    · exact h2.2
    · rcases this with ⟨a1, a2⟩ | ⟨a1, a2⟩
      · exact absurd ⟨a2, a1⟩ h1
      · exact absurd ⟨a2, a1⟩ h2
  · intro hno hok
    have hpair : conicIntercept S r = (.OK, (conicIntercept S r).2) := Prod.ext hok rfl
    obtain ⟨d, hd, _⟩ := (C89_hit S r _ h).1 hpair
    exact hno d hd.1 hd.2.1

/-- A ray that fails is left where it was. -/
theorem C89_unmoved (S : Surf) (r : Ray) (h : (conicIntercept S r).1 ≠ .OK) :
    (conicIntercept S r).2 = r := by
  rw [conic_eq] at h ⊢
  dsimp only at h ⊢
  split_ifs at h ⊢ <;> simp at h ⊢

/-- **C89** (backwards). The code BACK means: the surface is met, and only behind. -/
theorem C89_back (S : Surf) (r : Ray) (h : General S.curve S.asph r)
    (hb : (conicIntercept S r).1 = .BACK) :
    (∀ d, 0 < d → ¬ Quadric S.curve S.asph (along r d)) ∧
      ∃ d, d < 0 ∧ Quadric S.curve S.asph (along r d) := by
  have hroot : ∀ e, e ≠ 0 → ((e = (getBothRoots (quadA S.curve S.asph r)
      (quadB S.curve S.asph r) (quadC S.curve S.asph r)).1 ∨ e = (getBothRoots
      (quadA S.curve S.asph r) (quadB S.curve S.asph r) (quadC S.curve S.asph r)).2) ↔
      Quadric S.curve S.asph (along r e)) := fun e he => by
    rw [quadric_along]; exact C89_roots _ _ _ _ h.1 h.2 he
  rw [conic_eq] at hb
  dsimp only at hb
  split_ifs at hb with h1
  obtain ⟨h1, h2⟩ := h1
  constructor
  · intro d hd hq
    rcases (hroot d hd.ne').2 hq with rfl | rfl
    · exact absurd hd (not_lt.2 ((le_max_left _ _).trans h1))
    · exact absurd hd (not_lt.2 ((le_max_right _ _).trans h1))
  · refine ⟨_, h2, (hroot _ h2.ne).1 ?_⟩
    rcases min_choice (getBothRoots (quadA S.curve S.asph r)
        (quadB S.curve S.asph r) (quadC S.curve S.asph r)).1 (getBothRoots
        (quadA S.curve S.asph r) (quadB S.curve S.asph r) (quadC S.curve S.asph r)).2 with h | h
    · left; exact h
    · right; exact h

/-- Without roots the ray is lost. -/
theorem miss_of_roots (S : Surf) (r : Ray)
    (h : getBothRoots (quadA S.curve S.asph r) (quadB S.curve S.asph r)
      (quadC S.curve S.asph r) = (0, 0)) : conicIntercept S r = (.MISS, r) := by
  have hp : pick S r = 0 := by
    unfold pick
    simp only [h]
    simp
  rw [conic_eq]
  simp only [h, hp]
  simp

/-- A surface with curvature `c` and asphericity `a` and nothing else. -/
def plain (c a : ℝ) : Surf :=
  { action := 0, odiam := 0, idiam := 0, curve := c, asph := a, vertex := ⟨0, 0, 0⟩, tilt := 0
    pitch := 0, roll := 0, hasPoly := false, poly := [], legs := 0, legWidth := 0, glass := [] }

/-- General position is met: a ray along the axis towards a plane, and one towards a sphere. -/
example : General 0 0 ⟨⟨1, 2, -5⟩, ⟨0, 0, 1⟩⟩ ∧ General 1 0 ⟨⟨0.5, 0, -5⟩, ⟨0, 0, 1⟩⟩ := by
  unfold General quadA quadB quadC
  norm_num

/-- **C89** (plane). A ray from anywhere in front of a plane surface reaches it. -/
theorem C89_plane (S : Surf) (r : Ray) (hc : S.curve = 0) (hw : r.pos.z * r.dir.z < 0) :
    conicIntercept S r = (.OK,
      ⟨⟨r.pos.x - r.pos.z / r.dir.z * r.dir.x, r.pos.y - r.pos.z / r.dir.z * r.dir.y, 0⟩,
        r.dir⟩) := by
  have hw0 : r.dir.z ≠ 0 := by intro h; rw [h] at hw; simp at hw
  have hG : General S.curve S.asph r := by
    unfold General quadA quadB quadC
    rw [hc]
    constructor
    · intro _; ring
    · intro h
      apply hw0
      have : r.dir.z ^ 2 = 0 := by linear_combination (1/4) * h
      exact pow_eq_zero_iff (two_ne_zero) |>.1 this
  rw [C89_hit S r _ hG]
  have hd : 0 < -(r.pos.z / r.dir.z) := by
    rw [← neg_div]
    rcases lt_or_gt_of_ne hw0 with h | h
    · exact div_pos_of_neg_of_neg (by nlinarith) h
    · exact div_pos (by nlinarith) h
  refine ⟨-(r.pos.z / r.dir.z), ⟨hd, ?_, ?_⟩, ?_⟩
  · rw [hc]; unfold OnSag along
    constructor
    · norm_num
    · dsimp only; field_simp; ring
  · intro e _ hed hs
    rw [hc] at hs
    have hz := hs.2
    rw [zero_mul, zero_div] at hz
    unfold along at hz
    apply hed.ne
    field_simp
    linarith
  · unfold along
    congr 2
    · ring
    · ring
    · field_simp; ring

example : (-5 : ℝ) * 1 < 0 := by norm_num

/-- **C89** (finding). A ray from the centre of curvature straight to the vertex of a sphere is
reported as MISS although it hits the surface at the vertex. -/
theorem C89_from_centre (R : ℝ) (hR : 0 < R) :
    (conicIntercept (plain (1 / R) 0) ⟨⟨0, 0, R⟩, ⟨0, 0, -1⟩⟩).1 = .MISS ∧
      FirstCrossing (1 / R) 0 ⟨⟨0, 0, R⟩, ⟨0, 0, -1⟩⟩ R := by
  have hR0 : R ≠ 0 := hR.ne'
  constructor
  · have h0 : getBothRoots (quadA (1 / R) 0 ⟨⟨0, 0, R⟩, ⟨0, 0, -1⟩⟩)
        (quadB (1 / R) 0 ⟨⟨0, 0, R⟩, ⟨0, 0, -1⟩⟩) (quadC (1 / R) 0 ⟨⟨0, 0, R⟩, ⟨0, 0, -1⟩⟩)
        = (0, 0) := by
      have hA : quadA (1 / R) 0 ⟨⟨0, 0, R⟩, ⟨0, 0, -1⟩⟩ = 1 / R := by unfold quadA; norm_num
      have hB : quadB (1 / R) 0 ⟨⟨0, 0, R⟩, ⟨0, 0, -1⟩⟩ = 0 := by
        unfold quadB; dsimp only; field_simp; ring
      have hC : quadC (1 / R) 0 ⟨⟨0, 0, R⟩, ⟨0, 0, -1⟩⟩ = -R := by
        unfold quadC; dsimp only; field_simp; ring
      rw [hA, hB, hC]
      unfold getBothRoots
      rw [if_neg (by simp), if_pos ⟨rfl, by positivity⟩, if_neg]
      rw [not_lt, div_div_eq_mul_div, div_one]
      nlinarith
    rw [miss_of_roots _ _ h0]
  · refine ⟨hR, ?_, ?_⟩
    · unfold OnSag along; norm_num
    · intro e he heR hs
      have hz := hs.2
      unfold along at hz
      norm_num at hz
      linarith

example : (0 : ℝ) < 1 := one_pos

/-- **C89** (finding). A ray that does not meet the sphere at all is reported as a hit, and is
moved to a point that is not on the sphere. -/
theorem C89_phantom :
    conicIntercept (plain 1 0) ⟨⟨2, 0, 0⟩, ⟨0, 1, 0⟩⟩ = (.OK, ⟨⟨2, 2, 0⟩, ⟨0, 1, 0⟩⟩) ∧
      ¬ Quadric 1 0 ⟨2, 2, 0⟩ ∧
      ∀ d, ¬ Quadric 1 0 (along ⟨⟨2, 0, 0⟩, ⟨0, 1, 0⟩⟩ d) := by
  refine ⟨?_, ?_, ?_⟩
  · have h4 : Real.sqrt 4 = 2 := by
      rw [show (4 : ℝ) = 2 ^ 2 by norm_num, Real.sqrt_sq (by norm_num)]
    have h0 : getBothRoots (quadA 1 0 ⟨⟨2, 0, 0⟩, ⟨0, 1, 0⟩⟩)
        (quadB 1 0 ⟨⟨2, 0, 0⟩, ⟨0, 1, 0⟩⟩) (quadC 1 0 ⟨⟨2, 0, 0⟩, ⟨0, 1, 0⟩⟩)
        = (2, -2) := by
      unfold getBothRoots quadA quadB quadC
      norm_num [h4]
    rw [conic_ok_iff]
    have hp : pick (plain 1 0) ⟨⟨2, 0, 0⟩, ⟨0, 1, 0⟩⟩ = 2 := by
      unfold pick
      dsimp only [plain]
      simp only [h0]
      norm_num
    rw [hp]
    unfold along
    norm_num
  · unfold Quadric; norm_num
  · intro d h
    unfold Quadric along at h
    norm_num at h
    nlinarith [sq_nonneg d]

/-- **C89** (finding). A ray that touches the surface without crossing it is reported as MISS. -/
theorem C89_grazing :
    (conicIntercept (plain 1 0) ⟨⟨-1, 0, 0⟩, ⟨1, 0, 0⟩⟩).1 = .MISS ∧
      FirstCrossing 1 0 ⟨⟨-1, 0, 0⟩, ⟨1, 0, 0⟩⟩ 1 := by
  constructor
  · have h0 : getBothRoots (quadA 1 0 ⟨⟨-1, 0, 0⟩, ⟨1, 0, 0⟩⟩)
        (quadB 1 0 ⟨⟨-1, 0, 0⟩, ⟨1, 0, 0⟩⟩) (quadC 1 0 ⟨⟨-1, 0, 0⟩, ⟨1, 0, 0⟩⟩)
        = (0, 0) := by
      unfold getBothRoots quadA quadB quadC
      norm_num
    rw [miss_of_roots _ _ h0]
  · refine ⟨one_pos, ?_, ?_⟩
    · unfold OnSag along; norm_num
    · intro e he h1 hs
      have hq := ((onSag_iff _ _ _).1 hs).1
      unfold Quadric along at hq
      norm_num at hq
      nlinarith

/-- **C89** (finding). A ray that is on a plane surface already (two surfaces in the same
place) is lost there. -/
theorem C89_coincident (S : Surf) (r : Ray) (hc : S.curve = 0) (hz : r.pos.z = 0)
    (hw : r.dir.z ≠ 0) : conicIntercept S r = (.MISS, r) := by
  have h0 : getBothRoots (quadA S.curve S.asph r) (quadB S.curve S.asph r)
      (quadC S.curve S.asph r) = (0, 0) := by
    have hA : quadA S.curve S.asph r = 0 := by unfold quadA; rw [hc]; ring
    have hB : quadB S.curve S.asph r = -2 * r.dir.z := by unfold quadB; rw [hc]; ring
    have hC : quadC S.curve S.asph r = 0 := by unfold quadC; rw [hc, hz]; ring
    rw [hA, hB, hC]
    unfold getBothRoots
    rw [if_pos ⟨rfl, by simpa using hw⟩]
    simp
  exact miss_of_roots _ _ h0

example : (plain 0 0).curve = 0 ∧ (⟨⟨1, 2, 0⟩, ⟨0, 0, 1⟩⟩ : Ray).pos.z = 0 ∧
    (⟨⟨1, 2, 0⟩, ⟨0, 0, 1⟩⟩ : Ray).dir.z ≠ 0 := by
  unfold plain; norm_num

end Verif.Props.RayConic
