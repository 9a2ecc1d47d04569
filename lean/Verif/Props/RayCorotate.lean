import Verif.Props.RayAdc
import Verif.Props.RayTables
import Verif.Model.RayDesi

/-!
# C97: turning the star and the dispersion corrector together

In the telescope of DESI, turning the incoming ray and both elements of the dispersion corrector
about the axis by the same angle turns the ray that arrives at the focal plane by that angle.
-/

namespace Verif.Props.RayCorotate

open Verif.Py Verif.RayTrace
open Verif.Props.RayFrames Verif.Props.RayTurn Verif.Props.RayAdc Verif.Props.RayTables

/-- A surface that is the same after any turn about the axis. -/
def Symmetric (S : Surf) : Prop := OnAxis S ∧ Plain S ∧ S.action ≠ 5

theorem final_labRows (refr : PyStr → Except PyErr ℝ) (surfs : List Surf) (start : Hit) :
    final refr surfs start = (labRows refr surfs start).map fun rows =>
      if rows.length = surfs.length then some (rows.getLastD start.lab) else none := by
  unfold final labRows runOneRay
  cases runFrom refr surfs start with
  | error e => rfl
  | ok rows =>
    simp only [Except.map, List.length_map]
    congr 2
    induction rows generalizing start with
    | nil => rfl
    | cons h t ih => rw [List.getLastD_cons, List.map_cons, List.getLastD_cons]; rw [ih]

theorem final_turn (refr : PyStr → Except PyErr ℝ) (Q : M3) (surfs surfs' : List Surf)
    (h : List.Forall₂ (Turned Q) surfs surfs') (start : Hit) :
    final refr surfs' (turnHit Q start) =
      (final refr surfs start).map (Option.map (turn Q)) := by
  unfold final runOneRay
  rw [C94_turn refr Q surfs surfs' h]
  cases runFrom refr surfs start with
  | error e => rfl
  | ok rows =>
    simp only [Except.map, List.length_map, h.length_eq]
    congr 1
    split_ifs
    · rw [Option.map_some]
      congr 1
      clear * -
      induction rows generalizing start with
      | nil => rfl
      | cons h t ih => rw [List.getLastD_cons, List.map_cons, List.getLastD_cons]; rw [ih]
    · rfl

/-- Symmetric surfaces kept, all others turned. -/
def Kept (a : ℝ) (S S' : Surf) : Prop :=
  (Symmetric S ∧ S' = S) ∨ (S.action ≠ 5 ∧ Turned (Z a) S S')

theorem between (a : ℝ) (l l' : List Surf) (h : List.Forall₂ (Kept a) l l') :
    ∃ m, List.Forall₂ (Turned (Z a)) l m ∧ List.Forall₂ Rolled l' m ∧
      ∀ S ∈ l', S.action ≠ 5 ∧ Plain S := by
  induction h with
  | nil => exact ⟨[], .nil, .nil, by simp⟩
  | @cons S S' l l' hS _ ih =>
    obtain ⟨m, h1, h2, h3⟩ := ih
    rcases hS with ⟨hs, rfl⟩ | ⟨h5, hT⟩
    · refine ⟨{ S' with roll := a + S'.roll } :: m, .cons (turned_axis S' hs.1 hs.2.1 a) h1,
        .cons ⟨_, rfl⟩ h2, ?_⟩
      intro T hT
      rcases List.mem_cons.1 hT with rfl | hT
      · exact ⟨hs.2.2, hs.2.1⟩
      · exact h3 T hT
    · refine ⟨S' :: m, .cons hT h1, .cons ⟨S'.roll, rfl⟩ h2, ?_⟩
      intro T hT'
      rcases List.mem_cons.1 hT' with rfl | hT'
      · rw [hT.same]; exact ⟨h5, hT.nospider⟩
      · exact h3 T hT'

theorem final_kept (refr : PyStr → Except PyErr ℝ) (a : ℝ) (l l' : List Surf)
    (h : List.Forall₂ (Kept a) l l') (start : Hit) :
    final refr l' (turnHit (Z a) start) = (final refr l start).map (Option.map (turn (Z a))) := by
  obtain ⟨m, h1, h2, h3⟩ := between a l l' h
  rw [← final_turn refr (Z a) l m h1, final_labRows, final_labRows,
    C94_rolls refr l' m h2 h3, h2.length_eq]

theorem turned_add (a b : ℝ) (S S' S'' : Surf) (h : Turned (Z a) S S') (h' : Turned (Z b) S' S'') :
    Turned (Z (a + b)) S S'' := by
  refine ⟨?_, ?_, ?_, h.nospider⟩
  · rw [h'.same, h.same]
  · rw [h'.frame, h.frame, ← mul_assoc, ← Z_comp, add_comm]
  · rw [h'.place, h.place, ← mul_comp (Z b) (Z a) (Z (a + b)) (by rw [← Z_comp, add_comm])]

theorem turned_exists (a : ℝ) (S : Surf) (h : Plain S) : ∃ S', Turned (Z a) S S' := by
  obtain ⟨l, hl⟩ := C94_turn_exists (Z a) (Z_so a) [S] (by
    intro T hT; rw [List.mem_singleton] at hT; subst hT; exact h)
  cases hl with
  | cons h _ => exact ⟨_, h⟩

theorem turnHit_zero (h : Hit) : turnHit (Z (-0)) h = h := by
  unfold turnHit turn
  rw [neg_zero, Z_zero, Z_zero]

/-- A break that is not rolled does nothing. -/
theorem skip_pair (refr : PyStr → Except PyErr ℝ) (pre rest : List Surf) (I O : Surf)
    (hI : BreakIn I) (hO : BreakOut I O 0) (hrest : ∀ S, rest.head? = some S → S.action ≠ 5)
    (start : Hit) :
    final refr (pre ++ I :: O :: rest) start = final refr (pre ++ I :: rest) start := by
  refine final_prefix refr pre (I :: O :: rest) (I :: rest) rfl (fun h => ?_) start
  have := inside refr 0 I O hI hO rest hrest [] [] .nil h
  rw [turnHit_zero] at this
  exact this

/-- **C97** (turning the corrector). A telescope laid out as that of DESI: symmetric surfaces, a break
that is not rolled (hexapod), symmetric surfaces, the two elements of the corrector between their
breaks, symmetric surfaces.  If both angles of the corrector are increased by `t` degrees and the
incoming ray is turned by `t` about the axis, then the outgoing ray is turned by `t`; the same
rays are lost, and the same errors occur. -/
theorem C97_corotate (adc1 adc2 t : ℝ) (front mid rest : List Surf)
    (hpre : front.length + mid.length = 7)
    (I₀ O₀ I₁ O₁ I₂ O₂ I₃ O₃ I₄ O₄ a b c d : Surf)
    (hf : ∀ S ∈ front, Symmetric S) (hm : ∀ S ∈ mid, Symmetric S) (hr : ∀ S ∈ rest, Symmetric S)
    (h₀ : BreakIn I₀) (h₁ : BreakIn I₁) (h₂ : BreakIn I₂) (h₃ : BreakIn I₃) (h₄ : BreakIn I₄)
    (k₀ : BreakOut I₀ O₀ 0)
    (k₁ : BreakOut I₁ O₁ O₁.roll) (k₂ : BreakOut I₂ O₂ O₂.roll) (k₃ : BreakOut I₃ O₃ O₃.roll)
    (k₄ : BreakOut I₄ O₄ O₄.roll) (ha : Plain a ∧ a.action ≠ 5) (hb : Plain b ∧ b.action ≠ 5)
    (hc : Plain c ∧ c.action ≠ 5) (hd : Plain d ∧ d.action ≠ 5) :
    ∃ T T', modifyADC adc1 adc2 (front ++ I₀ :: O₀ :: mid ++
        [I₁, O₁, a, b, I₂, O₂, I₃, O₃, c, d, I₄, O₄] ++ rest) = .ok T ∧
      modifyADC (adc1 + t) (adc2 + t) (front ++ I₀ :: O₀ :: mid ++
        [I₁, O₁, a, b, I₂, O₂, I₃, O₃, c, d, I₄, O₄] ++ rest) = .ok T' ∧
      ∀ refr start, final refr T' (turnHit (Z t) start) =
        (final refr T start).map (Option.map (turn (Z t))) := by
  obtain ⟨a', ha'⟩ := turned_exists adc1 a ha.1
  obtain ⟨b', hb'⟩ := turned_exists adc1 b hb.1
  obtain ⟨c', hc'⟩ := turned_exists adc2 c hc.1
  obtain ⟨d', hd'⟩ := turned_exists adc2 d hd.1
  have hpl : ∀ (x : ℝ) (S S' : Surf), Turned (Z x) S S' → Plain S' := by
    intro x S S' h; unfold Plain; rw [h.same]; exact h.nospider
  have hac : ∀ (x : ℝ) (S S' : Surf), Turned (Z x) S S' → S.action ≠ 5 → S'.action ≠ 5 := by
    intro x S S' h h5; rw [h.same]; exact h5
  obtain ⟨a'', ha''⟩ := turned_exists t a' (hpl _ _ _ ha')
  obtain ⟨b'', hb''⟩ := turned_exists t b' (hpl _ _ _ hb')
  obtain ⟨c'', hc''⟩ := turned_exists t c' (hpl _ _ _ hc')
  obtain ⟨d'', hd''⟩ := turned_exists t d' (hpl _ _ _ hd')
  have hlen : (front ++ I₀ :: O₀ :: mid).length = 9 := by
    rw [List.length_append, List.length_cons, List.length_cons]; omega
  have hrest : ∀ S, rest.head? = some S → S.action ≠ 5 :=
    fun S hS => (hr S (List.mem_of_head? hS)).2.2
  have hI : ∀ I, BreakIn I → Symmetric I := by
    intro I h
    refine ⟨h.axis, h.plain, ?_⟩
    rw [h.act]; norm_num
  have hmid : ∀ (x y z w : Surf), ∀ S,
      (mid ++ [I₁, x, y, I₂, I₃, z, w, I₄] ++ rest).head? = some S → S.action ≠ 5 := by
    intro x y z w S hS
    cases mid with
    | nil =>
      simp only [List.nil_append, List.cons_append, List.head?_cons, Option.some.injEq] at hS
      subst hS
      rw [h₁.act]; norm_num
    | cons M l =>
      simp only [List.cons_append, List.head?_cons, Option.some.injEq] at hS
      subst hS
      exact (hm M List.mem_cons_self).2.2
  have key : ∀ (x y : ℝ) (p q r s : Surf), Turned (Z x) a p → Turned (Z x) b q →
      Turned (Z y) c r → Turned (Z y) d s →
      ∃ T, modifyADC x y (front ++ I₀ :: O₀ :: mid ++
        [I₁, O₁, a, b, I₂, O₂, I₃, O₃, c, d, I₄, O₄] ++ rest) = .ok T ∧
      ∀ refr start, final refr T start =
        final refr (front ++ I₀ :: (mid ++ [I₁, p, q, I₂, I₃, r, s, I₄] ++ rest)) start := by
    intro x y p q r s hp hq hr' hs
    have hex : ∀ refr, ∃ T, modifyADC x y (front ++ I₀ :: O₀ :: mid ++
        [I₁, O₁, a, b, I₂, O₂, I₃, O₃, c, d, I₄, O₄] ++ rest) = .ok T ∧ ∀ start,
        final refr T start = final refr (front ++ I₀ :: O₀ :: mid ++
          [I₁, p, q, I₂, I₃, r, s, I₄] ++ rest) start :=
      fun refr => C94_adc refr x y _ rest hlen I₁ O₁ I₂ O₂ I₃ O₃ I₄ O₄ a b c d p q r s
        h₁ h₂ h₃ h₄ k₁ k₂ k₃ k₄ hp hq hr' hs hrest
    obtain ⟨T, hT, _⟩ := hex (fun _ => .ok 1)
    refine ⟨T, hT, fun refr start => ?_⟩
    obtain ⟨T₂, hT₂, hf₂⟩ := hex refr
    have : T₂ = T := Except.ok.inj (hT₂.symm.trans hT)
    subst this
    rw [hf₂]
    have := skip_pair refr front (mid ++ [I₁, p, q, I₂, I₃, r, s, I₄] ++ rest) I₀ O₀ h₀ k₀
      (hmid p q r s) start
    rw [← this]
    simp only [List.append_assoc, List.cons_append]
  obtain ⟨T, hT, hTf⟩ := key adc1 adc2 a' b' c' d' ha' hb' hc' hd'
  obtain ⟨T', hT', hTf'⟩ := key (adc1 + t) (adc2 + t) a'' b'' c'' d''
    (turned_add _ _ _ _ _ ha' ha'') (turned_add _ _ _ _ _ hb' hb'')
    (turned_add _ _ _ _ _ hc' hc'') (turned_add _ _ _ _ _ hd' hd'')
  refine ⟨T, T', hT, hT', fun refr start => ?_⟩
  rw [hTf, hTf']
  apply final_kept
  have hsame : ∀ l : List Surf, (∀ S ∈ l, Symmetric S) → List.Forall₂ (Kept t) l l := by
    intro l hl
    rw [List.forall₂_same]
    exact fun S hS => Or.inl ⟨hl S hS, rfl⟩
  refine List.rel_append (hsame _ hf) (.cons (Or.inl ⟨hI _ h₀, rfl⟩) ?_)
  refine List.rel_append (List.rel_append (hsame _ hm) ?_) (hsame _ hr)
  exact .cons (Or.inl ⟨hI _ h₁, rfl⟩) (.cons (Or.inr ⟨hac _ _ _ ha' ha.2, ha''⟩)
    (.cons (Or.inr ⟨hac _ _ _ hb' hb.2, hb''⟩) (.cons (Or.inl ⟨hI _ h₂, rfl⟩)
    (.cons (Or.inl ⟨hI _ h₃, rfl⟩) (.cons (Or.inr ⟨hac _ _ _ hc' hc.2, hc''⟩)
    (.cons (Or.inr ⟨hac _ _ _ hd' hd.2, hd''⟩) (.cons (Or.inl ⟨hI _ h₄, rfl⟩) .nil)))))))

end Verif.Props.RayCorotate
