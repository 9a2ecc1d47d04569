import Verif.Model.Brightimage
import Verif.Lemmas.Pos2ptl
import Verif.Lemmas.Argmax
import Mathlib.Tactic.Ring
import Mathlib.Tactic.Positivity
import Mathlib.Tactic.Choose

/-!
# C55: detection of the phi arms
-/

namespace Verif.Props
open Verif.Py Verif.Model.Brightimage

namespace Arms

theorem getD_lt {α : Type} {l : List α} {d : α} {n : ℕ} (h : n < l.length) : l.getD n d = l[n] := by
  simp [List.getD, List.getElem?_eq_getElem h]

theorem mask_sq (p i j : ℕ) : mask p i j * mask p i j = mask p i j := by
  unfold mask; split_ifs <;> simp

theorem prepare_idem (m : ℕ) (t : Option Img) : prepare m (prepare m t) = prepare m t := by
  rcases t with _ | t
  · rfl
  · unfold prepare
    dsimp only
    set u : Img := fun i j => t i j * mask (m / 2) i j with hu
    set N := Real.sqrt (total m fun i j => u i j ^ 2) with hN
    by_cases h : N = 0
    · rw [if_pos h]
    · rw [if_neg h]
      have h0 : 0 ≤ total m fun i j => u i j ^ 2 :=
        Finset.sum_nonneg fun i _ => Finset.sum_nonneg fun j _ => sq_nonneg _
      have hN2 : N ^ 2 = total m fun i j => u i j ^ 2 := Real.sq_sqrt h0
      have e : (fun i j => u i j / N * mask (m / 2) i j : Img) = fun i j => u i j / N := by
        funext i j
        rw [hu]
        dsimp only
        rw [div_mul_eq_mul_div, mul_assoc, mask_sq]
      have e2 : (total m fun i j => (u i j / N * mask (m / 2) i j) ^ 2) = 1 := by
        have : (fun i j => (u i j / N * mask (m / 2) i j) ^ 2 : Img) = fun i j => u i j ^ 2 * (N ^ 2)⁻¹ := by
          funext i j
          have := congrFun (congrFun e i) j
          rw [this, div_pow, div_eq_mul_inv]
        rw [this]
        unfold total
        simp only [← Finset.sum_mul]
        change (total m fun i j => u i j ^ 2) * (N ^ 2)⁻¹ = 1
        rw [← hN2]
        exact mul_inv_cancel₀ (pow_ne_zero 2 h)
      simp only
      rw [e2, Real.sqrt_one, if_neg one_ne_zero]
      congr 1
      funext i j
      rw [div_one]
      exact congrFun (congrFun e i) j

/-- `argmax` without NaN. -/
theorem argmax_some (l : List ℝ) (h : l ≠ []) :
    argmax (l.map some) < l.length ∧ (∀ v ∈ l, v ≤ l.getD (argmax (l.map some)) 0) ∧
      ∀ j < argmax (l.map some), l.getD j 0 < l.getD (argmax (l.map some)) 0 := by
  have e : argmax (l.map some) = argmaxReal l := by
    unfold argmax
    have : (l.map some).any Option.isNone = false := by simp
    rw [this]
    simp [Function.comp_def]
  rw [e]; exact Lemmas.argmaxReal_spec l h

theorem argmax_none (l : List (Option ℝ)) (h : none ∈ l) :
    argmax l < l.length ∧ l.getD (argmax l) (some 0) = none ∧ ∀ j < argmax l, ∃ v, l[j]? = some (some v) := by
  have ha : l.any Option.isNone = true := List.any_eq_true.2 ⟨none, h, rfl⟩
  unfold argmax
  rw [if_pos ha]
  have hlt : l.findIdx Option.isNone < l.length := List.findIdx_lt_length_of_exists ⟨none, h, rfl⟩
  refine ⟨hlt, ?_, ?_⟩
  · have := List.findIdx_getElem (w := hlt)
    rw [getD_lt hlt]
    exact Option.isNone_iff_eq_none.1 this
  · intro j hj
    have h1 := List.not_of_lt_findIdx hj
    have hjl : j < l.length := hj.trans hlt
    rw [List.getElem?_eq_getElem hjl]
    rcases hv : l[j] with _ | v
    · rw [hv] at h1; simp at h1
    · exact ⟨v, rfl⟩

end Arms

open Arms

/-- Using the template array that an earlier call left behind gives what a fresh one gives, for
result and for the state left behind. -/
theorem C55_template_reuse (ext : Ext) (shape : ℕ × ℕ) (h w : ℕ) (image : Img) (step : ℝ) (p q : ℝ × ℝ)
    (t t' : Option Img) (a : Arm) (hp : detectPhiArm ext shape h w image step p t = .ok (a, t')) :
    detectPhiArm ext shape h w image step q t' = detectPhiArm ext shape h w image step q t := by
  have ht : t' = prepare shape.1 t := by
    unfold detectPhiArm at hp
    dsimp only at hp
    split_ifs at hp
    cases hp; rfl
  subst ht
  unfold detectPhiArm
  dsimp only
  rw [prepare_idem]

namespace Arms

theorem serial_ok (det : ℝ × ℝ → Option Img → Except PyErr (Arm × Option Img)) (t0 : Option Img)
    (hre : ∀ p q t t' a, det p t = .ok (a, t') → det q t' = det q t) :
    ∀ (ps : List (ℝ × ℝ)) (arm : ℝ × ℝ → Arm) (t : Option Img), (∀ q, det q t = det q t0) →
      (∀ p ∈ ps, ∃ t', det p t0 = .ok (arm p, t')) → serial det ps t = (ps.map arm, none)
  | [], _, _, _, _ => rfl
  | p :: ps, arm, t, ht, h => by
    obtain ⟨t', hp⟩ := h p (by simp)
    unfold serial
    rw [ht p, hp]
    simp only
    have hn : ∀ q, det q t' = det q t0 := fun q => hre p q t0 t' _ hp
    rw [serial_ok det t0 hre ps arm t' hn fun p hp => h p (List.mem_cons_of_mem _ hp)]
    rfl

theorem serial_err (det : ℝ × ℝ → Option Img → Except PyErr (Arm × Option Img)) (t0 : Option Img)
    (hre : ∀ p q t t' a, det p t = .ok (a, t') → det q t' = det q t) :
    ∀ (l1 : List (ℝ × ℝ)) (p : ℝ × ℝ) (l2 : List (ℝ × ℝ)) (arm : ℝ × ℝ → Arm) (t : Option Img) (e : PyErr),
      (∀ q, det q t = det q t0) →
      (∀ p ∈ l1, ∃ t', det p t0 = .ok (arm p, t')) → det p t0 = .error e →
      serial det (l1 ++ p :: l2) t = (l1.map arm, some e)
  | [], p, l2, _, t, e, ht, _, he => by
    rw [List.nil_append]
    unfold serial
    rw [ht p, he]; rfl
  | q :: l1, p, l2, arm, t, e, ht, h, he => by
    obtain ⟨t', hp⟩ := h q (by simp)
    rw [List.cons_append]
    unfold serial
    rw [ht q, hp]
    simp only
    have hn : ∀ r, det r t' = det r t0 := fun r => hre q r t0 t' _ hp
    rw [serial_err det t0 hre l1 p l2 arm t' e hn (fun p hp => h p (List.mem_cons_of_mem _ hp)) he]
    rfl

/-- Split at the first failing spot. -/
theorem first_fail (det : ℝ × ℝ → Option Img → Except PyErr (Arm × Option Img)) (t0 : Option Img) :
    ∀ ps : List (ℝ × ℝ), (∀ p ∈ ps, ∃ a t', det p t0 = .ok (a, t')) ∨
      ∃ l1 p l2 e, ps = l1 ++ p :: l2 ∧ (∀ q ∈ l1, ∃ a t', det q t0 = .ok (a, t')) ∧ det p t0 = .error e
  | [] => Or.inl (by simp)
  | p :: ps => by
    rcases hp : det p t0 with e | ⟨a, t'⟩
    · exact Or.inr ⟨[], p, ps, e, rfl, by simp, hp⟩
    · rcases first_fail det t0 ps with h | ⟨l1, q, l2, e, rfl, h1, h2⟩
      · left
        intro q hq
        rcases List.mem_cons.1 hq with rfl | hq
        · exact ⟨a, t', hp⟩
        · exact h q hq
      · right
        refine ⟨p :: l1, q, l2, e, rfl, ?_, h2⟩
        intro r hr
        rcases List.mem_cons.1 hr with rfl | hr
        · exact ⟨a, t', hp⟩
        · exact h1 r hr

theorem choose_arm {det : ℝ × ℝ → Option Img → Except PyErr (Arm × Option Img)} {t0 : Option Img}
    {ps : List (ℝ × ℝ)} (h : ∀ p ∈ ps, ∃ a t', det p t0 = .ok (a, t')) (d : Arm) :
    ∃ arm : ℝ × ℝ → Arm, ∀ p ∈ ps, ∃ t', det p t0 = .ok (arm p, t') := by
  refine ⟨fun p => match det p t0 with | .ok (a, _) => a | .error _ => d, fun p hp => ?_⟩
  obtain ⟨a, t', e⟩ := h p hp
  exact ⟨t', by simp only [e]⟩

end Arms

/-- Parallel and sequential detection agree for every division into chunks and every order of
completion.  If every spot can be measured on its own with a fresh template, both fill each row
with that measurement.  If some cannot, both raise: the sequential run the error of the first such
spot, with the rows before it filled; the parallel run the error of some spot, no row filled. -/
theorem C55_parallel_equals_serial (ext : Ext) (shape : ℕ × ℕ) (h w : ℕ) (image : Img) (step : ℝ)
    (t : Option Img) (chunks : List (List (ℝ × ℝ))) :
    let det := detectPhiArm ext shape h w image step
    let spots := chunks.flatten
    (∀ arm : ℝ × ℝ → Arm, (∀ p ∈ spots, ∃ t', det p t = .ok (arm p, t')) →
      armsSerial det t spots = (spots.map fun p => some (arm p), none) ∧
      ∀ o, ArmsPool det t chunks o ↔ o = (spots.map fun p => some (arm p), none)) ∧
    (∀ l1 p l2 e (arm : ℝ × ℝ → Arm), spots = l1 ++ p :: l2 → (∀ q ∈ l1, ∃ t', det q t = .ok (arm q, t')) →
      det p t = .error e →
      armsSerial det t spots = ((l1.map fun q => some (arm q)) ++ List.replicate (l2.length + 1) none, some e) ∧
      (∃ o, ArmsPool det t chunks o) ∧
      ∀ o, ArmsPool det t chunks o → o.1 = List.replicate spots.length none ∧
        ∃ q ∈ spots, ∃ e', det q t = .error e' ∧ o.2 = some e') := by
  intro det spots
  have hre : ∀ p q t t' a, det p t = .ok (a, t') → det q t' = det q t :=
    fun p q t t' a hp => C55_template_reuse ext shape h w image step p q t t' a hp
  refine ⟨?_, ?_⟩
  · intro arm harm
    refine ⟨?_, ?_⟩
    · unfold armsSerial
      rw [serial_ok det t hre spots arm t (fun _ => rfl) harm]
      simp
    · have hch : ∀ c ∈ chunks, runChunk det t c = .ok (c.map arm) := by
        intro c hc
        unfold runChunk
        rw [serial_ok det t hre c arm t (fun _ => rfl) fun p hp => harm p (List.mem_flatten.2 ⟨c, hc, hp⟩)]
      have hmap : chunks.mapM (runChunk det t) = .ok (chunks.map (List.map arm)) := by
        have : ∀ cs : List (List (ℝ × ℝ)), (∀ c ∈ cs, runChunk det t c = .ok (c.map arm)) →
            cs.mapM (runChunk det t) = .ok (cs.map (List.map arm)) := by
          intro cs
          induction cs with
          | nil => intro _; rfl
          | cons c cs ih =>
            intro hcs
            rw [List.mapM_cons, hcs c (by simp), ih fun c hc => hcs c (List.mem_cons_of_mem _ hc)]
            rfl
        exact this chunks hch
      have hflat : ((chunks.map (List.map arm)).flatten.map some) = spots.map fun p => some (arm p) := by
        rw [← List.map_flatten, List.map_map]; rfl
      intro o
      constructor
      · rintro (⟨ls, h1, rfl⟩ | ⟨c, hc, e, h1, -⟩)
        · rw [hmap] at h1; cases h1; rw [hflat]
        · rw [hch c hc] at h1; cases h1
      · intro ho
        left
        exact ⟨_, hmap, by rw [ho, hflat]⟩
  · intro l1 p l2 e arm hsp hl1 hp
    have hpm : p ∈ spots := by rw [hsp]; simp
    obtain ⟨c0, hc0, hpc0⟩ := List.mem_flatten.1 hpm
    have d0 : Arm := ⟨0, none, [], 0, 0⟩
    have hfail : ∀ c ∈ chunks, (∃ l, runChunk det t c = .ok l) ∧ (∀ q ∈ c, ∃ a t', det q t = .ok (a, t')) ∨
        ∃ q ∈ c, ∃ e', det q t = .error e' ∧ runChunk det t c = .error e' := by
      intro c hc
      rcases first_fail det t c with hall | ⟨k1, q, k2, e', rfl, hk1, hq⟩
      · left
        obtain ⟨arm', harm'⟩ := choose_arm hall d0
        refine ⟨⟨c.map arm', ?_⟩, hall⟩
        unfold runChunk
        rw [serial_ok det t hre c arm' t (fun _ => rfl) harm']
      · right
        obtain ⟨arm', harm'⟩ := choose_arm hk1 d0
        refine ⟨q, by simp, e', hq, ?_⟩
        unfold runChunk
        rw [serial_err det t hre k1 q k2 arm' t e' (fun _ => rfl) harm' hq]
    have hc0fail : ∃ q ∈ c0, ∃ e', det q t = .error e' ∧ runChunk det t c0 = .error e' := by
      rcases hfail c0 hc0 with ⟨-, hall⟩ | hf
      · obtain ⟨a, t', ha⟩ := hall p hpc0
        rw [hp] at ha; cases ha
      · exact hf
    refine ⟨?_, ?_, ?_⟩
    · unfold armsSerial
      rw [hsp, serial_err det t hre l1 p l2 arm t e (fun _ => rfl) hl1 hp]
      simp only [List.map_map, List.length_append, List.length_cons, List.length_map, Function.comp_def]
      rw [show l1.length + (l2.length + 1) - l1.length = l2.length + 1 by omega]
    · obtain ⟨q, hq, e', h1, h2⟩ := hc0fail
      exact ⟨_, Or.inr ⟨c0, hc0, e', h2, rfl⟩⟩
    · rintro o (⟨ls, h1, -⟩ | ⟨c, hc, e', h1, rfl⟩)
      · exfalso
        have : ∀ (cs : List (List (ℝ × ℝ))) ls, cs.mapM (runChunk det t) = .ok ls →
            ∀ c ∈ cs, ∃ l, runChunk det t c = .ok l := by
          intro cs
          induction cs with
          | nil => intro _ _ c hc; cases hc
          | cons d cs ih =>
            intro ls hls c hc
            rw [List.mapM_cons] at hls
            obtain ⟨a, ha, hls⟩ := Lemmas.bind_ok hls
            obtain ⟨b, hb, -⟩ := Lemmas.bind_ok hls
            rcases List.mem_cons.1 hc with rfl | hc
            · exact ⟨a, ha⟩
            · exact ih b hb c hc
        obtain ⟨l, hl⟩ := this chunks ls h1 c0 hc0
        obtain ⟨q, hq, e', -, h2⟩ := hc0fail
        rw [hl] at h2; cases h2
      · refine ⟨rfl, ?_⟩
        rcases hfail c hc with ⟨⟨l, hl⟩, -⟩ | ⟨q, hq, e'', h3, h4⟩
        · rw [hl] at h1; cases h1
        · rw [h1] at h4; cases h4
          exact ⟨q, List.mem_flatten.2 ⟨c, hc, hq⟩, e', h3, rfl⟩

/-- Which inputs are rejected: a template that is not square, one with even side, a stamp that
reaches beyond the image.  Everything else gives a result. -/
theorem C55_accepted (ext : Ext) (shape : ℕ × ℕ) (h w : ℕ) (image : Img) (step : ℝ) (xy : ℝ × ℝ)
    (t : Option Img) :
    (shape.1 ≠ shape.2 → detectPhiArm ext shape h w image step xy t = .error .assertionError) ∧
    (shape.1 = shape.2 → shape.1 % 2 = 0 → detectPhiArm ext shape h w image step xy t = .error .valueError) ∧
    (shape.1 = shape.2 → shape.1 % 2 = 1 →
      ((∃ r, detectPhiArm ext shape h w image step xy t = .ok r) ↔
        (shape.1 / 2 : ℕ) ≤ pyRound xy.1 ∧ pyRound xy.1 + (shape.1 / 2 : ℕ) < w ∧
        (shape.1 / 2 : ℕ) ≤ pyRound xy.2 ∧ pyRound xy.2 + (shape.1 / 2 : ℕ) < h)) := by
  unfold detectPhiArm
  dsimp only
  refine ⟨fun h1 => by rw [if_pos h1], fun h1 h2 => ?_, fun h1 h2 => ?_⟩
  · rw [if_neg (by simpa using h1), if_pos (by omega)]
  · rw [if_neg (by simpa using h1), if_neg (by omega)]
    constructor
    · rintro ⟨r, hr⟩
      split_ifs at hr with hc
      omega
    · intro hc
      rw [if_neg (by omega)]
      exact ⟨_, rfl⟩

namespace Arms

theorem scan_some (ext : Ext) (m : ℕ) (image : Img) (t : Img) (step : ℝ) (y0 x0 : ℕ) (sigma : ℝ)
    (hstep : 0 < step)
    (hn : Real.sqrt (total m fun i j => (ext.edges sigma image y0 x0 i j * mask (m / 2) i j) ^ 2) ≠ 0) :
    let c := fun ang => total m fun i j => ext.rot t (-ang) i j * (ext.edges sigma image y0 x0 i j * mask (m / 2) i j /
      Real.sqrt (total m fun i j => (ext.edges sigma image y0 x0 i j * mask (m / 2) i j) ^ 2))
    let s := scan ext m image (some t) step y0 x0 sigma
    ∃ a0 ∈ coarseAngles, (∀ b ∈ coarseAngles, c b ≤ c a0) ∧
      s.angle ∈ fineAngles a0 step ∧ s.ccf = some (c s.angle) ∧ ∀ b ∈ fineAngles a0 step, c b ≤ c s.angle := by
  intro c s
  have hcc : ∀ l : List ℝ, l.map (ccfAt ext m (some t) (some fun i j => ext.edges sigma image y0 x0 i j * mask (m / 2) i j /
      Real.sqrt (total m fun i j => (ext.edges sigma image y0 x0 i j * mask (m / 2) i j) ^ 2))) =
      (l.map c).map some := by
    intro l; rw [List.map_map]; rfl
  have pick : ∀ l : List ℝ, l ≠ [] → ∃ k, k = argmax ((l.map c).map some) ∧ ∃ hk : k < l.length,
      ∀ b ∈ l, c b ≤ c l[k] := by
    intro l hl
    obtain ⟨h1, h2, -⟩ := argmax_some (l.map c) (by simpa using hl)
    refine ⟨_, rfl, by simpa using h1, fun b hb => ?_⟩
    have := h2 (c b) (List.mem_map_of_mem hb)
    rwa [getD_lt h1, List.getElem_map] at this
  have hco : coarseAngles ≠ [] := by simp [coarseAngles]
  obtain ⟨k, hk, hkl, hkmax⟩ := pick coarseAngles hco
  have hfi : fineAngles coarseAngles[k] step ≠ [] := by
    unfold fineAngles
    have : 0 < ⌈(20 + step) / step⌉ := Int.ceil_pos.2 (by positivity)
    have h2 : ⌈(20 + step) / step⌉.toNat ≠ 0 := by omega
    simpa using h2
  obtain ⟨k', hk', hkl', hkmax'⟩ := pick (fineAngles coarseAngles[k] step) hfi
  have hs : s = ⟨some (c (fineAngles coarseAngles[k] step)[k']), (fineAngles coarseAngles[k] step)[k'],
      ((fineAngles coarseAngles[k] step).map c).map some,
      Real.sqrt (total m fun i j => (ext.edges sigma image y0 x0 i j * mask (m / 2) i j) ^ 2)⟩ := by
    show scan ext m image (some t) step y0 x0 sigma = _
    unfold scan
    dsimp only
    rw [if_neg hn]
    simp only [hcc]
    rw [← hk, getD_lt hkl, ← hk', getD_lt hkl', getD_lt (by simpa using hkl')]
    simp
  rw [hs]
  exact ⟨coarseAngles[k], List.getElem_mem _, hkmax, List.getElem_mem _, rfl, hkmax'⟩

theorem scan_none (ext : Ext) (m : ℕ) (image : Img) (t : Option Img) (step : ℝ) (y0 x0 : ℕ) (sigma : ℝ)
    (hstep : 0 < step)
    (hn : t = none ∨ Real.sqrt (total m fun i j => (ext.edges sigma image y0 x0 i j * mask (m / 2) i j) ^ 2) = 0) :
    (scan ext m image t step y0 x0 sigma).ccf = none ∧ (scan ext m image t step y0 x0 sigma).angle = -10 := by
  have key : ∀ en : Option Img, (t = none ∨ en = none) → ∀ l : List ℝ, l ≠ [] →
      argmax (l.map (ccfAt ext m t en)) = 0 ∧ ∀ v, (l.map (ccfAt ext m t en)).getD 0 v = none := by
    intro en hen l hl
    have hc : ∀ a, ccfAt ext m t en a = none := by
      intro a
      unfold ccfAt
      rcases hen with h | h
      · subst h; rfl
      · subst h; rcases t with _ | t <;> rfl
    obtain ⟨a, l, rfl⟩ := List.exists_cons_of_ne_nil hl
    refine ⟨?_, fun v => by simp [hc]⟩
    unfold argmax
    simp [hc, List.findIdx_cons]
  unfold scan
  dsimp only
  set en := (if Real.sqrt (total m fun i j => (ext.edges sigma image y0 x0 i j * mask (m / 2) i j) ^ 2) = 0 then none
    else some fun i j => ext.edges sigma image y0 x0 i j * mask (m / 2) i j /
      Real.sqrt (total m fun i j => (ext.edges sigma image y0 x0 i j * mask (m / 2) i j) ^ 2) : Option Img) with hen
  have h : t = none ∨ en = none := by
    rcases hn with h | h
    · exact Or.inl h
    · right; rw [hen, if_pos h]
  have hco : coarseAngles ≠ [] := by simp [coarseAngles]
  rw [(key en h coarseAngles hco).1]
  have h0 : coarseAngles.getD 0 0 = 0 := by simp [coarseAngles, List.range_succ_eq_map]
  rw [h0]
  have hc : 0 < ⌈(20 + step) / step⌉ := Int.ceil_pos.2 (by positivity)
  have hfi : fineAngles 0 step ≠ [] := by
    unfold fineAngles
    have h2 : ⌈(20 + step) / step⌉.toNat ≠ 0 := by omega
    simpa using h2
  rw [(key en h _ hfi).1]
  refine ⟨(key en h _ hfi).2 none, ?_⟩
  unfold fineAngles
  obtain ⟨n, hn'⟩ : ∃ n, ⌈(20 + step) / step⌉.toNat = n + 1 := ⟨⌈(20 + step) / step⌉.toNat - 1, by omega⟩
  rw [hn', List.range_succ_eq_map]
  simp

end Arms

/-- What is returned when edges are found at every smoothing scale: the correlation `CCF` is the
largest over the five scales and the fine angles around each scale's best coarse angle, and
`ANGLE` is the angle where it occurs, minus 90 degrees, in radians. -/
theorem C55_best_angle (ext : Ext) (m h w : ℕ) (image : Img) (step : ℝ) (hstep : 0 < step) (xy : ℝ × ℝ)
    (t t' : Option Img) (a : Arm) (hr : detectPhiArm ext (m, m) h w image step xy t = .ok (a, t')) (u : Img)
    (hu : prepare m t = some u)
    (y0 x0 : ℕ) (hy : (y0 : ℤ) = pyRound xy.2 - (m / 2 : ℕ)) (hx : (x0 : ℤ) = pyRound xy.1 - (m / 2 : ℕ))
    (norm : ℝ → ℝ)
    (hnorm : ∀ s ∈ sigmas, norm s ≠ 0 ∧
      norm s = Real.sqrt (total m fun i j => (ext.edges s image y0 x0 i j * mask (m / 2) i j) ^ 2)) :
    let c := fun s ang => total m fun i j => ext.rot u (-ang) i j * (ext.edges s image y0 x0 i j * mask (m / 2) i j / norm s)
    ∃ coarse : ℝ → ℝ,
      (∀ s ∈ sigmas, coarse s ∈ coarseAngles ∧ ∀ b ∈ coarseAngles, c s b ≤ c s (coarse s)) ∧
      ∃ s ∈ sigmas, ∃ ang ∈ fineAngles (coarse s) step,
        a.angle = (ang - 90) * Real.pi / 180 ∧ a.ccf = some (c s ang) ∧
        ∀ s' ∈ sigmas, ∀ b ∈ fineAngles (coarse s') step, c s' b ≤ c s ang := by
  intro c
  have hscan : ∀ s ∈ sigmas, ∃ a0 ∈ coarseAngles, (∀ b ∈ coarseAngles, c s b ≤ c s a0) ∧
      (scan ext m image (some u) step y0 x0 s).angle ∈ fineAngles a0 step ∧
      (scan ext m image (some u) step y0 x0 s).ccf = some (c s (scan ext m image (some u) step y0 x0 s).angle) ∧
      ∀ b ∈ fineAngles a0 step, c s b ≤ c s (scan ext m image (some u) step y0 x0 s).angle := by
    intro s hs
    obtain ⟨h1, h2⟩ := hnorm s hs
    have := scan_some ext m image u step y0 x0 s hstep (by rw [← h2]; exact h1)
    rw [← h2] at this
    exact this
  choose! coarse hc1 hc2 hc3 hc4 hc5 using hscan
  refine ⟨coarse, fun s hs => ⟨hc1 s hs, hc2 s hs⟩, ?_⟩
  set S := scan ext m image (some u) step y0 x0 with hS
  have hccf : (sigmas.map S).map Scan.ccf = (sigmas.map fun s => c s (S s).angle).map some := by
    rw [List.map_map, List.map_map]
    apply List.map_congr_left
    intro s hs
    exact hc4 s hs
  obtain ⟨k1, k2, -⟩ := argmax_some (sigmas.map fun s => c s (S s).angle) (by simp [sigmas])
  rw [← hccf] at k1 k2
  set bb := argmax ((sigmas.map S).map Scan.ccf) with hbb
  have hbl : bb < sigmas.length := by simpa using k1
  have ha : a.angle = ((S sigmas[bb]).angle - 90) * (Real.pi / 180) ∧ a.ccf = (S sigmas[bb]).ccf := by
    unfold detectPhiArm at hr
    dsimp only at hr
    split_ifs at hr with g1 g2
    rw [hu] at hr
    have e0 : (pyRound xy.2 - ((m / 2 : ℕ) : ℤ)).toNat = y0 := by rw [← hy]; simp
    have e1 : (pyRound xy.1 - ((m / 2 : ℕ) : ℤ)).toNat = x0 := by rw [← hx]; simp
    rw [e0, e1] at hr
    injection hr with hr
    injection hr with hr _
    rw [← hr]
    dsimp only
    rw [← hS, ← hbb, getD_lt (by simpa using hbl), List.getElem_map]
    exact ⟨rfl, rfl⟩
  have hmem : sigmas[bb] ∈ sigmas := List.getElem_mem _
  refine ⟨sigmas[bb], hmem, (S sigmas[bb]).angle, hc3 _ hmem, ?_, ?_, ?_⟩
  · rw [ha.1]; ring
  · rw [ha.2, hc4 _ hmem]
  · intro s' hs' b hb
    refine (hc5 s' hs' b hb).trans ?_
    have := k2 (c s' (S s').angle) (List.mem_map_of_mem (f := fun s => c s (S s).angle) hs')
    rwa [getD_lt k1, List.getElem_map] at this

/-- If at a single one of the five smoothing scales no edge is found inside the mask (or the template
is zero there), the result is NaN with the angle -100 degrees, whatever the other scales give. -/
theorem C55_one_scale_spoils (ext : Ext) (m h w : ℕ) (image : Img) (step : ℝ) (hstep : 0 < step) (xy : ℝ × ℝ)
    (t t' : Option Img) (a : Arm) (hr : detectPhiArm ext (m, m) h w image step xy t = .ok (a, t'))
    (y0 x0 : ℕ) (hy : (y0 : ℤ) = pyRound xy.2 - (m / 2 : ℕ)) (hx : (x0 : ℤ) = pyRound xy.1 - (m / 2 : ℕ))
    (s : ℝ) (hs : s ∈ sigmas)
    (hz : ∀ i < m, ∀ j < m, ext.edges s image y0 x0 i j * mask (m / 2) i j = 0) :
    a.ccf = none ∧ a.angle = -100 * Real.pi / 180 := by
  unfold detectPhiArm at hr
  dsimp only at hr
  split_ifs at hr with g1 g2
  have e0 : (pyRound xy.2 - ((m / 2 : ℕ) : ℤ)).toNat = y0 := by rw [← hy]; simp
  have e1 : (pyRound xy.1 - ((m / 2 : ℕ) : ℤ)).toNat = x0 := by rw [← hx]; simp
  rw [e0, e1] at hr
  set S := scan ext m image (prepare m t) step y0 x0 with hS
  have htot : Real.sqrt (total m fun i j => (ext.edges s image y0 x0 i j * mask (m / 2) i j) ^ 2) = 0 := by
    have : total m (fun i j => (ext.edges s image y0 x0 i j * mask (m / 2) i j) ^ 2) = 0 := by
      unfold total
      refine Finset.sum_eq_zero fun i hi => Finset.sum_eq_zero fun j hj => ?_
      simp only [hz i (Finset.mem_range.1 hi) j (Finset.mem_range.1 hj)]; norm_num
    rw [this, Real.sqrt_zero]
  have hnone : none ∈ (sigmas.map S).map Scan.ccf := by
    rw [List.map_map]
    exact List.mem_map.2 ⟨s, hs, (scan_none ext m image _ step y0 x0 s hstep (Or.inr htot)).1⟩
  obtain ⟨k1, k2, -⟩ := argmax_none _ hnone
  set bb := argmax ((sigmas.map S).map Scan.ccf) with hbb
  have hbl : bb < sigmas.length := by simpa using k1
  rw [getD_lt k1, List.getElem_map, List.getElem_map] at k2
  injection hr with hr
  injection hr with hr _
  rw [← hr]
  dsimp only
  rw [getD_lt (by simpa using hbl), List.getElem_map]
  refine ⟨k2, ?_⟩
  -- the chosen scale is itself one without value
  have hang : (S sigmas[bb]).angle = -10 := by
    by_cases hn : prepare m t = none ∨ Real.sqrt (total m fun i j =>
        (ext.edges sigmas[bb] image y0 x0 i j * mask (m / 2) i j) ^ 2) = 0
    · exact (scan_none ext m image _ step y0 x0 _ hstep hn).2
    · push Not at hn
      exfalso
      obtain ⟨u, hu⟩ := Option.ne_none_iff_exists'.1 hn.1
      obtain ⟨_, _, _, _, h5, _⟩ := scan_some ext m image u step y0 x0 sigmas[bb] hstep hn.2
      rw [hS, hu, h5] at k2
      cases k2
  rw [hang]; ring

/-! Instances of the hypotheses. -/

/-- A 3 x 3 template in a 20 x 20 image: one spot inside, one at the corner. -/
example (ext : Ext) (image : Img) (t : Option Img) :
    (∃ r, detectPhiArm ext (3, 3) 20 20 image 1 (10, 10) t = .ok r) ∧
    ∃ e, detectPhiArm ext (3, 3) 20 20 image 1 (0, 10) t = .error e := by
  have r0 : pyRound 0 = 0 := by simp [pyRound]
  have r10 : pyRound 10 = 10 := by
    have h1 : ⌊(10:ℝ)⌋ = 10 := by exact_mod_cast Int.floor_natCast (R := ℝ) 10
    have h2 : Int.fract (10:ℝ) = 0 := by exact_mod_cast Int.fract_natCast (R := ℝ) 10
    simp [pyRound, h1, h2]
  obtain ⟨-, -, h3⟩ := C55_accepted ext (3, 3) 20 20 image 1 (10, 10) t
  obtain ⟨-, -, h4⟩ := C55_accepted ext (3, 3) 20 20 image 1 (0, 10) t
  refine ⟨(h3 rfl rfl).2 (by simp [r10]), ?_⟩
  rcases hd : detectPhiArm ext (3, 3) 20 20 image 1 (0, 10) t with e | r
  · exact ⟨e, rfl⟩
  · have := (h4 rfl rfl).1 ⟨r, hd⟩
    simp [r0] at this

/-- An image routine that finds no edges at scale 0.1 only. -/
example : ∃ ext : Ext, (0.1 : ℝ) ∈ sigmas ∧
    (∀ image y0 x0, ∀ i < 3, ∀ j < 3, ext.edges 0.1 image y0 x0 i j * mask (3 / 2) i j = 0) ∧
    ∀ image y0 x0, ext.edges 1 image y0 x0 1 1 * mask (3 / 2) 1 1 ≠ 0 := by
  refine ⟨⟨fun s _ _ _ _ _ => if s = 0.1 then 0 else 1, fun t _ => t⟩, by simp [sigmas], ?_, ?_⟩
  · intro _ _ _ i _ j _; simp
  · intro _ _ _; norm_num [mask]

end Verif.Props
