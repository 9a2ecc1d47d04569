import Verif.Model.MovingDetect
import Verif.Props.AverageCoord
import Verif.Props.FindFiducialsExact

/-!
# C75: which positioners moved
-/

namespace Verif.Props.MovingDetect
open Verif.Py Verif.Model.Match Verif.Model.SimpleCorr Verif.Model.MovingDetect Verif.Props
open Verif.Model.AverageCoord (Env matchLists average)
open Verif.Model.Fvc2fp (FVC2FP)
open Verif.Spec (OnLine sqDist Affine)
open Verif.Props.Avg (Good)

theorem length_ml (env : Env) (l1 l2 : List (ℝ × ℝ)) : (matchLists env l1 l2).length = l1.length := by
  unfold matchLists; simp

theorem ml_get (env : Env) (l1 l2 : List (ℝ × ℝ)) (i : ℕ) (e : Option ℕ × WithTop ℝ) (h : (matchLists env l1 l2)[i]? = some e) :
    ∃ hi : i < l1.length,
      (matchSame env.argsort (env.nearest l2.get) l1.get l2.get true).1 ⟨i, hi⟩ = e.1 ∧
      (matchSame env.argsort (env.nearest l2.get) l1.get l2.get true).2 ⟨i, hi⟩ = e.2 := by
  unfold matchLists at h
  rw [List.getElem?_ofFn] at h
  split_ifs at h with hi
  simp only [Option.some.injEq] at h
  exact ⟨hi, by rw [← h], by rw [← h]⟩

/-- Matching two lists: pairs are nearest entries, one to one; a finite distance is that of the pair; an unmatched entry lost to a closer
one. -/
theorem ml_spec (env : Env) (hg : Good env) (l1 l2 : List (ℝ × ℝ)) :
    (∀ (i j : ℕ) (d : WithTop ℝ), (matchLists env l1 l2)[i]? = some (some j, d) → d < ⊤ → ∃ a b, l1[i]? = some a ∧ l2[j]? = some b ∧
      d = ((dist2 a b : ℝ) : WithTop ℝ) ∧ ∀ c ∈ l2, dist2 a b ≤ dist2 a c) ∧
    (∀ (i j : ℕ) (d : WithTop ℝ), (matchLists env l1 l2)[i]? = some (some j, d) → l2 ≠ [] → d < ⊤) ∧
    (∀ (i i' j : ℕ) (d d' : WithTop ℝ), (matchLists env l1 l2)[i]? = some (some j, d) → (matchLists env l1 l2)[i']? = some (some j, d') → l2 ≠ [] → i = i') ∧
    (∀ (i : ℕ) (d : WithTop ℝ), (matchLists env l1 l2)[i]? = some (none, d) → l2 ≠ [] → ∃ (a : ℝ × ℝ) (i0 j : ℕ) (a0 b : ℝ × ℝ), l1[i]? = some a ∧ l1[i0]? = some a0 ∧ l2[j]? = some b ∧
      (matchLists env l1 l2)[i0]? = some (some j, ((dist2 a0 b : ℝ) : WithTop ℝ)) ∧ (∀ c ∈ l2, dist2 a b ≤ dist2 a c) ∧
      dist2 a0 b ≤ dist2 a b) := by
  by_cases hm : 0 < l2.length
  · obtain ⟨a1, a2, a3, -, a5⟩ := C30_match_same hg.sorts (env.nearest l2.get) l1.get l2.get hm (hg.near _ hm)
    have hin : ∀ c ∈ l2, ∃ k : Fin l2.length, l2.get k = c := fun c hc => by
      obtain ⟨k, hk, e⟩ := List.getElem_of_mem hc
      exact ⟨⟨k, hk⟩, e⟩
    refine ⟨?_, ?_, ?_, ?_⟩
    · intro i j d h _
      obtain ⟨hi, e1, e2⟩ := ml_get env l1 l2 i _ h
      obtain ⟨hj, e3⟩ := a5 _ _ e1
      obtain ⟨_, e4⟩ := a1 _ _ e1
      refine ⟨l1[i], l2[j], List.getElem?_eq_getElem hi, List.getElem?_eq_getElem hj, ?_, ?_⟩
      · exact e2.symm.trans e3
      · intro c hc
        obtain ⟨k, rfl⟩ := hin c hc
        exact e4 k
    · intro i j d h _
      obtain ⟨hi, e1, e2⟩ := ml_get env l1 l2 i _ h
      obtain ⟨hj, e3⟩ := a5 _ _ e1
      dsimp only at e2
      rw [← e2, e3]
      exact WithTop.coe_lt_top _
    · intro i i' j d d' h h' _
      obtain ⟨hi, e1, -⟩ := ml_get env l1 l2 i _ h
      obtain ⟨hi', e1', -⟩ := ml_get env l1 l2 i' _ h'
      have := a2 _ _ _ e1 e1'
      simpa using this
    · intro i d h _
      obtain ⟨hi, e1, -⟩ := ml_get env l1 l2 i _ h
      obtain ⟨i0, j, hj, f1, -, f2, f3⟩ := a3 _ e1
      refine ⟨l1[i], i0, j, l1[i0], l2[j], List.getElem?_eq_getElem hi, List.getElem?_eq_getElem i0.2, List.getElem?_eq_getElem hj, ?_, ?_, f3⟩
      · obtain ⟨_, f4⟩ := a5 _ _ f1
        unfold matchLists
        rw [List.getElem?_ofFn, dif_pos i0.2]
        rw [f1, f4]
        rfl
      · intro c hc
        obtain ⟨k, rfl⟩ := hin c hc
        exact f2 k
  · have hnil : l2 = [] := by
      cases l2 with
      | nil => rfl
      | cons => simp at hm
    refine ⟨?_, fun _ _ _ _ h => absurd hnil h, fun _ _ _ _ _ _ _ h => absurd hnil h, fun _ _ _ h => absurd hnil h⟩
    intro i j d h hd
    obtain ⟨hi, -, e2⟩ := ml_get env l1 l2 i _ h
    dsimp only at e2
    rw [← e2] at hd
    exact absurd hd (by simp [matchSame, query, hm])

/-! ### What moved -/

theorem mem_zip_get {α β : Type} (l : List α) (m : List β) (a : α) (b : β) : (a, b) ∈ l.zip m ↔ ∃ i : ℕ, l[i]? = some a ∧ m[i]? = some b := by
  rw [List.mem_iff_getElem?]
  constructor
  · rintro ⟨i, h⟩
    rw [List.getElem?_zip_eq_some] at h
    exact ⟨i, h⟩
  · rintro ⟨i, h⟩
    exact ⟨i, List.getElem?_zip_eq_some.2 h⟩

/-- The pairs of spots compared: spots of the images after the moves, each with the nearest spot of the images before, however far. -/
theorem pairUp_spec (env : Env) (hg : Good env) (after before : List (ℝ × ℝ)) (hb : before ≠ []) :
    ∃ prs, pairUp env after before = .ok prs ∧ (prs.map Prod.fst).Sublist after ∧
      (∀ q ∈ prs, q.2 ∈ before ∧ ∀ b ∈ before, dist2 q.1 q.2 ≤ dist2 q.1 b) ∧
      ∀ a ∈ after, ∃ q ∈ prs, (∀ b ∈ before, dist2 a q.2 ≤ dist2 a b) ∧ dist2 q.1 q.2 ≤ dist2 a q.2 := by
  obtain ⟨m1, m2, -, m4⟩ := ml_spec env hg after before
  set f : (ℝ × ℝ) × (Option ℕ × WithTop ℝ) → Option ((ℝ × ℝ) × ℕ) := fun e => e.2.1.map fun j => (e.1, j) with hf
  set ok := (after.zip (matchLists env after before)).filterMap f with hok
  have hmem : ∀ q ∈ ok, ∃ b, before[q.2]? = some b ∧ ∀ c ∈ before, dist2 q.1 b ≤ dist2 q.1 c := by
    intro q hq
    obtain ⟨⟨a, o, d⟩, h1, h2⟩ := List.mem_filterMap.1 hq
    obtain ⟨i, h3, h4⟩ := (mem_zip_get _ _ _ _).1 h1
    cases o with
    | none => simp [hf] at h2
    | some j =>
      simp only [hf, Option.map_some, Option.some.injEq] at h2
      subst h2
      obtain ⟨a', b, e1, e2, -, e3⟩ := m1 i j d h4 (m2 i j d h4 hb)
      rw [h3] at e1
      injection e1 with e1
      subst e1
      exact ⟨b, e2, e3⟩
  have hrun : ∀ l : List ((ℝ × ℝ) × ℕ), (∀ q ∈ l, ∃ b, before[q.2]? = some b ∧ ∀ c ∈ before, dist2 q.1 b ≤ dist2 q.1 c) →
      ∃ prs, (l.mapM fun q => do let b ← at? before q.2; return (q.1, b)) = Except.ok prs ∧ prs.map Prod.fst = l.map Prod.fst ∧
        (∀ q ∈ prs, q.2 ∈ before ∧ ∀ b ∈ before, dist2 q.1 q.2 ≤ dist2 q.1 b) ∧
        ∀ q ∈ l, ∀ b, before[q.2]? = some b → (q.1, b) ∈ prs := by
    intro l
    induction l with
    | nil => intro _; exact ⟨[], rfl, rfl, by simp, by simp⟩
    | cons q l ih =>
      intro h
      obtain ⟨prs, e1, e2, e3, e4⟩ := ih fun q hq => h q (by simp [hq])
      obtain ⟨b, e5, e6⟩ := h q (by simp)
      refine ⟨(q.1, b) :: prs, ?_, by simp [e2], ?_, ?_⟩
      · rw [List.mapM_cons, e1]
        unfold at?
        rw [e5]
        rfl
      · intro q' hq'
        rcases List.mem_cons.1 hq' with rfl | hq'
        · exact ⟨List.mem_of_getElem? e5, e6⟩
        · exact e3 q' hq'
      · intro q' hq' b' hb'
        rcases List.mem_cons.1 hq' with rfl | hq'
        · rw [e5] at hb'
          injection hb' with hb'
          subst hb'
          exact List.mem_cons_self
        · exact List.mem_cons_of_mem _ (e4 q' hq' b' hb')
  obtain ⟨prs, e1, e2, e3, e4⟩ := hrun ok hmem
  refine ⟨prs, e1, ?_, e3, ?_⟩
  · rw [e2, hok]
    have hsub : ∀ l : List ((ℝ × ℝ) × (Option ℕ × WithTop ℝ)), ((l.filterMap f).map Prod.fst).Sublist (l.map Prod.fst) := by
      intro l
      induction l with
      | nil => simp
      | cons x l ih =>
        obtain ⟨a, o, d⟩ := x
        cases o with
        | none =>
          rw [List.filterMap_cons_none (by simp [hf])]
          exact ih.cons _
        | some j =>
          rw [List.filterMap_cons_some (b := (a, j)) (by simp [hf])]
          exact ih.cons_cons _
    have := hsub (after.zip (matchLists env after before))
    rwa [List.map_fst_zip (by rw [length_ml])] at this
  · intro a ha
    obtain ⟨i, hi, hia⟩ := List.getElem_of_mem ha
    have hi' : i < (matchLists env after before).length := by rw [length_ml]; exact hi
    obtain ⟨⟨o, d⟩, ho⟩ : ∃ e, (matchLists env after before)[i]? = some e := ⟨_, List.getElem?_eq_getElem hi'⟩
    have hput : ∀ (i : ℕ) (a : ℝ × ℝ) (j : ℕ) (d : WithTop ℝ) (b : ℝ × ℝ), after[i]? = some a → (matchLists env after before)[i]? = some (some j, d) →
        before[j]? = some b → (a, b) ∈ prs := by
      intro i a j d b h1 h2 h3
      refine e4 (a, j) ?_ b h3
      rw [hok]
      exact List.mem_filterMap.2 ⟨(a, some j, d), (mem_zip_get _ _ _ _).2 ⟨i, h1, h2⟩, rfl⟩
    cases o with
    | some j =>
      obtain ⟨a', b, f1, f2, -, f3⟩ := m1 i j d ho (m2 i j d ho hb)
      have : a' = a := by rw [List.getElem?_eq_getElem hi, hia] at f1; exact (Option.some.inj f1).symm
      subst this
      exact ⟨(a', b), hput i a' j d b f1 ho f2, f3, le_refl _⟩
    | none =>
      obtain ⟨a', i0, j, a0, b, f1, f2, f3, f4, f5, f6⟩ := m4 i d ho hb
      have : a' = a := by rw [List.getElem?_eq_getElem hi, hia] at f1; exact (Option.some.inj f1).symm
      subst this
      exact ⟨(a0, b), hput i0 a0 j _ b f2 f4 f3, f5, f6⟩


theorem forall₂_get {α β : Type} {R : α → β → Prop} {l : List α} {m : List β} (h : List.Forall₂ R l m) (i : ℕ) {a : α} {b : β}
    (ha : l[i]? = some a) (hb : m[i]? = some b) : R a b := by
  obtain ⟨h1, e1⟩ := List.getElem?_eq_some_iff.1 ha
  obtain ⟨h2, e2⟩ := List.getElem?_eq_some_iff.1 hb
  have := (List.forall₂_iff_get.1 h).2 i h1 h2
  simpa [e1, e2] using this

/-- Focal plane position of one pixel position. -/
def AtFp (t : FVC2FP) (p q : ℝ × ℝ) : Prop := t.fvc2fp [p] = .ok [q]

theorem mapM_single {α β : Type} (f : α → Except PyErr β) (a : α) (b : β) : [a].mapM f = .ok [b] ↔ f a = .ok b := by
  rw [List.mapM_cons]
  cases h : f a with
  | error e => constructor <;> intro h' <;> cases h'
  | ok x =>
    show Except.ok [x] = Except.ok [b] ↔ _
    simp

theorem fvc2fp_forall (t : FVC2FP) (l m : List (ℝ × ℝ)) (h : t.fvc2fp l = .ok m) : List.Forall₂ (AtFp t) l m := by
  have := Lemmas.mapM_inv _ _ _ h
  refine this.imp fun a b hab => ?_
  unfold AtFp FVC2FP.fvc2fp
  rw [mapM_single]
  exact hab

/-- **C75** What counts as moved: spots of the images after the moves are compared, pixel by pixel, with the nearest spots of those before,
after the affine transformation that best fits all the pairs; a spot is detected when the two positions in the focal plane differ by
more than the smallest and less than the largest move. -/
theorem C75_moved (env : Env) (hg : Good env) (t : FVC2FP) (after before : List (ℝ × ℝ)) (hb : before ≠ []) (minMove maxMove : ℝ)
    (spots : List Spot) (h : detect env t after before minMove maxMove = .ok spots) :
    ∃ (prs : List ((ℝ × ℝ) × (ℝ × ℝ))) (g : ℝ × ℝ → ℝ × ℝ),
      (prs.map Prod.fst).Sublist after ∧
      (∀ q ∈ prs, q.2 ∈ before ∧ ∀ b ∈ before, dist2 q.1 q.2 ≤ dist2 q.1 b) ∧
      (∀ a ∈ after, ∃ q ∈ prs, (∀ b ∈ before, dist2 a q.2 ≤ dist2 a b) ∧ dist2 q.1 q.2 ≤ dist2 a q.2) ∧
      (∀ m : Affine, (prs.map fun q => sqDist q.1 (g q.2)).sum ≤ (prs.map fun q => sqDist q.1 (m.app q.2)).sum) ∧
      (spots.map Spot.pix).Sublist after ∧
      ∀ s, s ∈ spots ↔ ∃ q ∈ prs, ∃ p, AtFp t q.1 s.xy ∧ AtFp t (g q.2) p ∧ s.pix = q.1 ∧
        minMove < dist2 p s.xy ∧ dist2 p s.xy < maxMove := by
  obtain ⟨prs, e1, e2, e3, e4⟩ := pairUp_spec env hg after before hb
  unfold detect at h
  rw [e1] at h
  obtain ⟨prs', e', h⟩ := Lemmas.bind_ok h
  injection e' with e'
  subst e'
  obtain ⟨corr, hfit, h⟩ := Lemmas.bind_ok h
  obtain ⟨xy1, h1, h⟩ := Lemmas.bind_ok h
  obtain ⟨xy2, h2, h⟩ := Lemmas.bind_ok h
  injection h with h
  have f1 := fvc2fp_forall t _ _ h1
  have f2 := fvc2fp_forall t _ _ h2
  have l1 := f1.length_eq
  have l2 := f2.length_eq
  rw [List.length_map] at l1 l2
  refine ⟨prs, fun p => apply corr p.1 p.2, e2, e3, e4, ?_, ?_, ?_⟩
  · intro m
    have := (C22_optimal _ corr hfit).2.1 m
    simpa [List.map_map, Function.comp_def] using this
  · rw [← h, List.map_map]
    refine List.Sublist.trans ?_ e2
    have : (prs.zip (xy1.zip xy2)).map (fun s => s.1.1) = prs.map Prod.fst := by
      rw [show (fun s : ((ℝ × ℝ) × (ℝ × ℝ)) × ((ℝ × ℝ) × (ℝ × ℝ)) => s.1.1) = Prod.fst ∘ Prod.fst from rfl, ← List.map_map,
        List.map_fst_zip (by rw [List.length_zip, ← l1, ← l2, min_self])]
    rw [← this]
    exact List.Sublist.map _ List.filter_sublist
  · intro s
    rw [← h, List.mem_map]
    constructor
    · rintro ⟨⟨q, a, b⟩, hq, rfl⟩
      obtain ⟨hz, hd⟩ := List.mem_filter.1 hq
      obtain ⟨i, g1, g2⟩ := (mem_zip_get _ _ _ _).1 hz
      obtain ⟨g3, g4⟩ := List.getElem?_zip_eq_some.1 g2
      dsimp only at hd ⊢
      have hd' : minMove < dist2 b a ∧ dist2 b a < maxMove := by simpa using hd
      refine ⟨q, List.mem_of_getElem? g1, b, ?_, ?_, rfl, hd'⟩
      · exact forall₂_get f1 i (by rw [List.getElem?_map, g1]; rfl) g3
      · exact forall₂_get f2 i (by rw [List.getElem?_map, g1]; rfl) g4
    · rintro ⟨q, hq, p, g1, g2, g3, hd⟩
      obtain ⟨i, hi, hiq⟩ := List.getElem_of_mem hq
      have k1 : xy1[i]? = some s.xy := by
        obtain ⟨x, hx⟩ : ∃ x, xy1[i]? = some x := ⟨_, List.getElem?_eq_getElem (by rw [← l1]; exact hi)⟩
        have := forall₂_get f1 i (by rw [List.getElem?_map, List.getElem?_eq_getElem hi, hiq]; rfl) hx
        unfold AtFp at this g1
        rw [g1] at this
        injection this with this
        injection this with this
        rw [this]; exact hx
      have k2 : xy2[i]? = some p := by
        obtain ⟨x, hx⟩ : ∃ x, xy2[i]? = some x := ⟨_, List.getElem?_eq_getElem (by rw [← l2]; exact hi)⟩
        have := forall₂_get f2 i (by rw [List.getElem?_map, List.getElem?_eq_getElem hi, hiq]; rfl) hx
        unfold AtFp at this g2
        rw [g2] at this
        injection this with this
        injection this with this
        rw [this]; exact hx
      refine ⟨(q, s.xy, p), List.mem_filter.2 ⟨(mem_zip_get _ _ _ _).2 ⟨i, by rw [List.getElem?_eq_getElem hi, hiq],
        List.getElem?_zip_eq_some.2 ⟨k1, k2⟩⟩, by simpa using hd⟩, ?_⟩
      rw [← g3]

/-- **C75** Images that differ only by an affine transformation (shift, rotation, scale; trace not zero) small enough for every spot to be
nearest to itself, spots not on one line: nothing is detected. -/
theorem C75_unmoved (env : Env) (hg : Good env) (t : FVC2FP) (before : List (ℝ × ℝ)) (m : Affine) (hm : m.m11 + m.m22 ≠ 0)
    (hl : ¬ OnLine before) (hnear : ∀ a ∈ before, ∀ b ∈ before, dist2 (m.app a) b ≤ dist2 (m.app a) a → b = a)
    (minMove maxMove : ℝ) (h0 : 0 ≤ minMove) (spots : List Spot)
    (h : detect env t (before.map m.app) before minMove maxMove = .ok spots) : spots = [] := by
  have hb : before ≠ [] := by
    rintro rfl
    exact hl ⟨1, 0, 0, by simp, by simp⟩
  obtain ⟨prs, e1, e2, e3, e4⟩ := pairUp_spec env hg (before.map m.app) before hb
  have hpair : ∀ q ∈ prs, q.1 = m.app q.2 := by
    intro q hq
    have hq1 : q.1 ∈ before.map m.app := e2.subset (List.mem_map_of_mem hq)
    obtain ⟨a, ha, hqa⟩ := List.mem_map.1 hq1
    obtain ⟨k1, k2⟩ := e3 q hq
    rw [← hqa]
    have := hnear a ha q.2 k1 (by rw [hqa]; exact k2 a ha)
    rw [this]
  have hall : ∀ b ∈ before, ∃ q ∈ prs, q.2 = b := by
    intro b hb'
    obtain ⟨q, hq, k1, k2⟩ := e4 (m.app b) (List.mem_map_of_mem hb')
    exact ⟨q, hq, hnear b hb' q.2 (e3 q hq).1 (k1 b hb')⟩
  unfold detect at h
  rw [e1] at h
  obtain ⟨prs', e', h⟩ := Lemmas.bind_ok h
  injection e' with e'
  subst e'
  obtain ⟨corr, hfit, h⟩ := Lemmas.bind_ok h
  obtain ⟨xy1, h1, h⟩ := Lemmas.bind_ok h
  obtain ⟨xy2, h2, h⟩ := Lemmas.bind_ok h
  injection h with h
  have happ : ∀ q ∈ prs, apply corr q.2.1 q.2.2 = q.1 := by
    have hline : ¬ OnLine (Lemmas.SimpleCorr.firsts (prs.map fun q => (⟨q.2.1, q.2.2, q.1.1, q.1.2⟩ : Pair))) := by
      rintro ⟨a, b, c, hne, hz⟩
      refine hl ⟨a, b, c, hne, fun p hp => ?_⟩
      obtain ⟨q, hq, rfl⟩ := hall p hp
      exact hz q.2 (by
        unfold Lemmas.SimpleCorr.firsts
        rw [List.map_map]
        exact List.mem_map.2 ⟨q, hq, rfl⟩)
    have hex : ExactData m (prs.map fun q => (⟨q.2.1, q.2.2, q.1.1, q.1.2⟩ : Pair)) := by
      intro p hp
      obtain ⟨q, hq, rfl⟩ := List.mem_map.1 hp
      exact (hpair q hq).symm
    obtain ⟨c', hc', k, -⟩ := (C22_exact m _ hline hex).1 hm
    rw [hfit] at hc'
    injection hc' with hc'
    subst hc'
    intro q hq
    rw [k, hpair q hq]
  have heq : (prs.map fun q => apply corr q.2.1 q.2.2) = prs.map Prod.fst := List.map_congr_left happ
  rw [heq, h1] at h2
  injection h2 with h2
  subst h2
  rw [← h, List.map_eq_nil_iff, List.filter_eq_nil_iff]
  rintro ⟨q, a, b⟩ hz
  obtain ⟨i, -, g2⟩ := (mem_zip_get _ _ _ _).1 hz
  obtain ⟨g3, g4⟩ := List.getElem?_zip_eq_some.1 g2
  rw [g3] at g4
  injection g4 with g4
  dsimp only at g4
  subst g4
  rw [decide_eq_true_eq]
  rintro ⟨h5, -⟩
  rw [Fid.dist2_self] at h5
  exact absurd h5 (not_lt.2 h0)

/-! ### Which device -/

theorem at?_ok {α : Type} {l : List α} {j : ℕ} {a : α} (h : at? l j = .ok a) : l[j]? = some a := by
  unfold at? at h
  split at h
  · injection h with h; rw [← h]; assumption
  · cases h

theorem mkRow_ok {κ : Type} {al : Model.Ptl2fp.Dict} {r2z : ℝ → ℝ} {req : List (Dev κ)} {q : Spot × ℕ} {r : Row κ}
    (h : mkRow al r2z req q = .ok r) : req[q.2]? = some r.dev ∧ r.spot = q.1 ∧ r.flags = 4 ∧ r.qs = Model.Xy2qs.xy2qs r.ptl.1 r.ptl.2 ∧
      ∃ v, Model.Ptl2fp.fp2ptl al r.dev.ploc (Model.Ptl2fp.withZ r2z r.spot.xy.1 r.spot.xy.2) = .ok v ∧ r.ptl = (v 0, v 1) := by
  obtain ⟨dev, h1, h⟩ := Lemmas.bind_ok h
  obtain ⟨v, h2, h⟩ := Lemmas.bind_ok h
  injection h with h
  subst h
  exact ⟨at?_ok h1, rfl, rfl, rfl, v, h2, rfl⟩

theorem identify_sublist (env : Env) (spots : List Spot) (centres : List (ℝ × ℝ)) (maxRadius : ℝ) :
    ((identify env spots centres maxRadius).map Prod.fst).Sublist spots := by
  unfold identify
  have hsub : ∀ l : List (Spot × (Option ℕ × WithTop ℝ)), ((l.filterMap fun e => match e.2.1 with
      | some j => if e.2.2 < (maxRadius : WithTop ℝ) then some (e.1, j) else none
      | none => none).map Prod.fst).Sublist (l.map Prod.fst) := by
    intro l
    induction l with
    | nil => simp
    | cons x l ih =>
      obtain ⟨a, o, d⟩ := x
      cases o with
      | none =>
        rw [List.filterMap_cons_none rfl]
        exact ih.cons _
      | some j =>
        by_cases hd : d < (maxRadius : WithTop ℝ)
        · rw [List.filterMap_cons_some (b := (a, j)) (by dsimp only; rw [if_pos hd])]
          exact ih.cons_cons _
        · rw [List.filterMap_cons_none (by dsimp only; rw [if_neg hd])]
          exact ih.cons _
  have := hsub (spots.zip (matchLists env (spots.map Spot.xy) centres))
  rwa [List.map_fst_zip (by rw [length_ml, List.length_map])] at this

theorem mem_identify (env : Env) (spots : List Spot) (centres : List (ℝ × ℝ)) (maxRadius : ℝ) (s : Spot) (j : ℕ) :
    (s, j) ∈ identify env spots centres maxRadius ↔ ∃ (i : ℕ) (d : WithTop ℝ), spots[i]? = some s ∧
      (matchLists env (spots.map Spot.xy) centres)[i]? = some (some j, d) ∧ d < (maxRadius : WithTop ℝ) := by
  unfold identify
  rw [List.mem_filterMap]
  constructor
  · rintro ⟨⟨a, o, d⟩, h1, h2⟩
    obtain ⟨i, h3, h4⟩ := (mem_zip_get _ _ _ _).1 h1
    cases o with
    | none => cases h2
    | some j' =>
      dsimp only at h2
      split_ifs at h2 with hd
      injection h2 with h2
      injection h2 with h5 h6
      subst h5 h6
      exact ⟨i, d, h3, h4, hd⟩
  · rintro ⟨i, d, h1, h2, h3⟩
    exact ⟨(s, some j, d), (mem_zip_get _ _ _ _).2 ⟨i, h1, h2⟩, by dsimp only; rw [if_pos h3]⟩

theorem identify_nodup (env : Env) (hg : Good env) (spots : List Spot) (centres : List (ℝ × ℝ)) (maxRadius : ℝ) (hc : centres ≠ []) :
    ((identify env spots centres maxRadius).map Prod.snd).Nodup := by
  obtain ⟨-, -, m3, -⟩ := ml_spec env hg (spots.map Spot.xy) centres
  unfold identify
  rw [List.Nodup, List.pairwise_map]
  refine List.Pairwise.filterMap (R := fun e f : Spot × (Option ℕ × WithTop ℝ) => ∀ j, e.2.1 = some j → f.2.1 ≠ some j) _ ?_ ?_
  · intro a a' h b hb b' hb'
    rcases a with ⟨s, _ | j, d⟩ <;> rcases a' with ⟨s', _ | j', d'⟩
    all_goals simp only [reduceCtorEq] at hb hb'
    split_ifs at hb with h1
    split_ifs at hb' with h2
    simp only [Option.some.injEq] at hb hb'
    rw [← hb, ← hb']
    intro e
    dsimp only at e
    subst e
    exact h j rfl rfl
  · rw [List.pairwise_iff_getElem]
    intro i i' hi hi' hlt j h1 h2
    simp only [List.getElem_zip] at h1 h2
    have k1 : i < (matchLists env (spots.map Spot.xy) centres).length := by rw [List.length_zip] at hi; omega
    have k2 : i' < (matchLists env (spots.map Spot.xy) centres).length := by rw [List.length_zip] at hi'; omega
    have := m3 i i' j _ _ (by rw [List.getElem?_eq_getElem k1, ← h1]) (by rw [List.getElem?_eq_getElem k2, ← h2]) hc
    omega

/-- **C75** The rows written. Each row is a moved spot with a requested device: there is no requested device closer to the spot, the
distance is between the two limits, no device and no spot is used twice. A moved spot with a unique closest requested device at a
distance between the limits is in the file, unless a spot not farther from that device took its place. No file is written when
there is no row. -/
theorem C75_rows {κ : Type} [DecidableEq κ] (env : Env) (hg : Good env) (al : Model.Ptl2fp.Dict) (r2z : ℝ → ℝ) (metrology : List (Dev κ))
    (moved : List κ) (spots : List Spot) (maxRadius minDist : ℝ) (out : Option (List (Row κ)))
    (h : label env al r2z metrology moved spots maxRadius minDist = .ok out) :
    out ≠ some [] ∧
    (∀ r ∈ out.getD [], r.dev ∈ metrology ∧ r.dev.id ∈ moved ∧ r.flags = 4 ∧
      minDist < dist2 r.spot.xy r.dev.xy ∧ dist2 r.spot.xy r.dev.xy < maxRadius ∧
      (∀ d ∈ metrology, d.id ∈ moved → dist2 r.spot.xy r.dev.xy ≤ dist2 r.spot.xy d.xy) ∧
      (∃ v, Model.Ptl2fp.fp2ptl al r.dev.ploc (Model.Ptl2fp.withZ r2z r.spot.xy.1 r.spot.xy.2) = .ok v ∧ r.ptl = (v 0, v 1)) ∧
      r.qs = Model.Xy2qs.xy2qs r.ptl.1 r.ptl.2) ∧
    ((out.getD []).map Row.spot).Sublist spots ∧
    (((metrology.filter fun d => d.id ∈ moved).map Dev.id).Nodup → ((out.getD []).map fun r => r.dev.id).Nodup) ∧
    ∀ s ∈ spots, ∀ d ∈ metrology, d.id ∈ moved →
      (∀ d' ∈ metrology, d'.id ∈ moved → d' ≠ d → dist2 s.xy d.xy < dist2 s.xy d'.xy) →
      (∀ d' ∈ metrology, d'.id ∈ moved → d'.xy = d.xy → d' = d) → dist2 s.xy d.xy < maxRadius →
      ∃ s0 ∈ spots, dist2 s0.xy d.xy ≤ dist2 s.xy d.xy ∧
        (minDist < dist2 s0.xy d.xy → ∃ r ∈ out.getD [], r.spot = s0 ∧ r.dev = d) := by
  set req := metrology.filter (fun d => d.id ∈ moved) with hreq
  have hin : ∀ d, d ∈ req ↔ d ∈ metrology ∧ d.id ∈ moved := fun d => by rw [hreq, List.mem_filter]; simp
  obtain ⟨rows, hrows, h⟩ := Lemmas.bind_ok h
  injection h with h
  have hout : out.getD [] = rows.filter fun r => minDist < dist2 r.spot.xy r.dev.xy := by
    rw [← h]
    split_ifs with h0
    · rfl
    · simp only [gt_iff_lt, not_lt, Nat.le_zero, List.length_eq_zero_iff] at h0
      rw [h0]; rfl
  have hfor := Lemmas.mapM_inv _ _ _ hrows
  obtain ⟨m1, m2, m3, m4⟩ := ml_spec env hg (spots.map Spot.xy) (req.map Dev.xy)
  have hrow : ∀ r ∈ rows, ∃ j, (r.spot, j) ∈ identify env spots (req.map Dev.xy) maxRadius ∧ mkRow al r2z req (r.spot, j) = .ok r := by
    intro r hr
    obtain ⟨i, hi, rfl⟩ := List.getElem_of_mem hr
    obtain ⟨hlen, hget⟩ := List.forall₂_iff_get.1 hfor
    have hi' : i < (identify env spots (req.map Dev.xy) maxRadius).length := by rw [hlen]; exact hi
    have hk := hget i hi' hi
    simp only [List.get_eq_getElem] at hk
    have hs := (mkRow_ok hk).2.1
    refine ⟨(identify env spots (req.map Dev.xy) maxRadius)[i].2, ?_, ?_⟩
    · rw [hs]; exact List.getElem_mem hi'
    · rw [hs]; exact hk
  refine ⟨?_, ?_, ?_, ?_, ?_⟩
  · rw [← h]
    split_ifs with h0
    · intro e
      injection e with e
      rw [e] at h0
      simp at h0
    · simp
  · intro r hr
    rw [hout] at hr
    obtain ⟨hr, hd⟩ := List.mem_filter.1 hr
    obtain ⟨j, hj, hk⟩ := hrow r hr
    obtain ⟨g1, -, g3, g4, g5⟩ := mkRow_ok hk
    obtain ⟨i, d, k1, k2, k3⟩ := (mem_identify _ _ _ _ _ _).1 hj
    obtain ⟨a, b, n1, n2, n3, n4⟩ := m1 i j d k2 (lt_of_lt_of_le k3 le_top)
    have ea : a = r.spot.xy := by rw [List.getElem?_map, k1] at n1; exact (Option.some.inj n1).symm
    dsimp only at g1
    have eb : b = r.dev.xy := by rw [List.getElem?_map, g1] at n2; exact (Option.some.inj n2).symm
    subst ea eb
    obtain ⟨q1, q2⟩ := (hin _).1 (List.mem_of_getElem? g1)
    rw [n3] at k3
    exact ⟨q1, q2, g3, by simpa using hd, WithTop.coe_lt_coe.1 k3,
      fun d' hd' hm => n4 _ (List.mem_map_of_mem ((hin d').2 ⟨hd', hm⟩)), g5, g4⟩
  · rw [hout]
    refine (List.Sublist.map _ List.filter_sublist).trans ?_
    have : rows.map Row.spot = (identify env spots (req.map Dev.xy) maxRadius).map Prod.fst := by
      apply List.ext_getElem
      · rw [List.length_map, List.length_map, hfor.length_eq]
      · intro i h1 h2
        obtain ⟨hlen, hget⟩ := List.forall₂_iff_get.1 hfor
        rw [List.getElem_map, List.getElem_map]
        have hk := hget i (by simpa using h2) (by simpa using h1)
        exact (mkRow_ok hk).2.1
    rw [this]
    exact identify_sublist _ _ _ _
  · intro hnd
    rw [hout]
    refine List.Nodup.sublist (List.Sublist.map _ List.filter_sublist) ?_
    by_cases hc : req.map Dev.xy = []
    · have : rows = [] := by
        rw [List.eq_nil_iff_forall_not_mem]
        intro r hr
        obtain ⟨j, -, hk⟩ := hrow r hr
        have := (mkRow_ok hk).1
        rw [List.map_eq_nil_iff.1 hc] at this
        simp at this
      rw [this]; simp
    · have hj := identify_nodup env hg spots (req.map Dev.xy) maxRadius hc
      rw [List.Nodup, List.pairwise_map, List.pairwise_iff_getElem] at hj ⊢
      intro i i' hi hi' hlt e
      obtain ⟨hlen, hget⟩ := List.forall₂_iff_get.1 hfor
      have g := (mkRow_ok (hget i (by rw [hlen]; exact hi) hi)).1
      have g' := (mkRow_ok (hget i' (by rw [hlen]; exact hi') hi')).1
      simp only [List.get_eq_getElem] at g g'
      refine hj i i' (by rw [hlen]; exact hi) (by rw [hlen]; exact hi') hlt ?_
      have w : (req.map Dev.id)[(identify env spots (req.map Dev.xy) maxRadius)[i].2]? = some rows[i].dev.id := by rw [List.getElem?_map, g]; rfl
      have w' : (req.map Dev.id)[(identify env spots (req.map Dev.xy) maxRadius)[i'].2]? = some rows[i].dev.id := by
        rw [List.getElem?_map, g', e]; rfl
      obtain ⟨z1, z2⟩ := List.getElem?_eq_some_iff.1 w
      obtain ⟨z1', z2'⟩ := List.getElem?_eq_some_iff.1 w'
      exact (List.Nodup.getElem_inj_iff hnd).1 (z2.trans z2'.symm)
  · intro s hs d hd hm huniq hxy hmax
    have hdr : d ∈ req := (hin d).2 ⟨hd, hm⟩
    have hne : req.map Dev.xy ≠ [] := by
      intro e
      rw [List.map_eq_nil_iff] at e
      rw [e] at hdr
      cases hdr
    have hbest : ∀ b : ℝ × ℝ, b ∈ req.map Dev.xy → dist2 s.xy b ≤ dist2 s.xy d.xy → b = d.xy := by
      intro b hb hle
      obtain ⟨d', hd', rfl⟩ := List.mem_map.1 hb
      by_cases e : d' = d
      · rw [e]
      · exact absurd (huniq d' ((hin d').1 hd').1 ((hin d').1 hd').2 e) (not_lt.2 hle)
    have hput : ∀ (i : ℕ) (s0 : Spot) (j : ℕ), spots[i]? = some s0 → (matchLists env (spots.map Spot.xy) (req.map Dev.xy))[i]? =
        some (some j, ((dist2 s0.xy d.xy : ℝ) : WithTop ℝ)) → (req.map Dev.xy)[j]? = some d.xy → dist2 s0.xy d.xy ≤ dist2 s.xy d.xy →
        minDist < dist2 s0.xy d.xy → ∃ r ∈ out.getD [], r.spot = s0 ∧ r.dev = d := by
      intro i s0 j h1 h2 h3 h4 h5
      have hmem : (s0, j) ∈ identify env spots (req.map Dev.xy) maxRadius :=
        (mem_identify _ _ _ _ _ _).2 ⟨i, _, h1, h2, WithTop.coe_lt_coe.2 (lt_of_le_of_lt h4 hmax)⟩
      obtain ⟨k, hk, hke⟩ := List.getElem_of_mem hmem
      obtain ⟨hlen, hget⟩ := List.forall₂_iff_get.1 hfor
      have hk' : k < rows.length := by rw [← hlen]; exact hk
      have g : mkRow al r2z req ((identify env spots (req.map Dev.xy) maxRadius)[k]) = .ok rows[k] := hget k hk hk'
      rw [hke] at g
      obtain ⟨g1, g2, -⟩ := mkRow_ok g
      have hdev : rows[k].dev = d := by
        dsimp only at g1
        rw [List.getElem?_map, g1] at h3
        have hmem' := (hin _).1 (List.mem_of_getElem? g1)
        exact hxy _ hmem'.1 hmem'.2 (Option.some.inj h3)
      refine ⟨rows[k], ?_, g2, hdev⟩
      rw [hout, List.mem_filter]
      refine ⟨List.getElem_mem hk', ?_⟩
      rw [g2, hdev]
      simpa using h5
    obtain ⟨i, hi, his⟩ := List.getElem_of_mem hs
    have his' : spots[i]? = some s := by rw [List.getElem?_eq_getElem hi, his]
    have hi' : i < (matchLists env (spots.map Spot.xy) (req.map Dev.xy)).length := by rw [length_ml, List.length_map]; exact hi
    obtain ⟨⟨o, dd⟩, ho⟩ : ∃ e, (matchLists env (spots.map Spot.xy) (req.map Dev.xy))[i]? = some e := ⟨_, List.getElem?_eq_getElem hi'⟩
    cases o with
    | some j =>
      obtain ⟨a, b, n1, n2, n3, n4⟩ := m1 i j dd ho (m2 i j dd ho hne)
      rw [List.getElem?_map, his'] at n1
      injection n1 with n1
      subst n1
      have eb := hbest b (List.mem_of_getElem? n2) (n4 _ (List.mem_map_of_mem hdr))
      subst eb
      rw [n3] at ho
      exact ⟨s, hs, le_refl _, hput i s j his' ho n2 (le_refl _)⟩
    | none =>
      obtain ⟨a, i0, j, a0, b, n1, n2, n3, n4, n5, n6⟩ := m4 i dd ho hne
      rw [List.getElem?_map, his'] at n1
      injection n1 with n1
      subst n1
      have eb := hbest b (List.mem_of_getElem? n3) (n5 _ (List.mem_map_of_mem hdr))
      subst eb
      rw [List.getElem?_map] at n2
      obtain ⟨s0, hs0, rfl⟩ := Option.map_eq_some_iff.1 n2
      exact ⟨s0, List.mem_of_getElem? hs0, n6, hput i0 s0 j hs0 n4 n3 n6⟩

theorem dist2_norm (p q : ℝ × ℝ) : dist2 p q = ‖(⟨p.1, p.2⟩ : ℂ) - ⟨q.1, q.2⟩‖ := by
  unfold dist2
  rw [Complex.norm_def, Complex.normSq_apply]
  congr 1
  simp
  ring

theorem dist2_triangle (p q r : ℝ × ℝ) : dist2 p r ≤ dist2 p q + dist2 q r := by
  rw [dist2_norm, dist2_norm, dist2_norm]
  have := norm_add_le ((⟨p.1, p.2⟩ : ℂ) - ⟨q.1, q.2⟩) (⟨q.1, q.2⟩ - ⟨r.1, r.2⟩)
  rwa [sub_add_sub_cancel] at this

/-- **C75** When the requested devices are at least twice the reach apart and the moved spots are fibres of different requested devices,
each within the reach of its own, every spot is given its own device; those farther than the smallest distance are written, and
nothing else. -/
theorem C75_exact {κ : Type} [DecidableEq κ] (env : Env) (hg : Good env) (al : Model.Ptl2fp.Dict) (r2z : ℝ → ℝ) (metrology : List (Dev κ))
    (moved : List κ) (spots : List Spot) (maxRadius minDist : ℝ) (out : Option (List (Row κ)))
    (h : label env al r2z metrology moved spots maxRadius minDist = .ok out) (R : ℝ) (hR : R ≤ maxRadius) (own : Spot → Dev κ)
    (hown : ∀ s ∈ spots, own s ∈ metrology ∧ (own s).id ∈ moved ∧ dist2 s.xy (own s).xy < R)
    (hinj : ∀ s ∈ spots, ∀ s' ∈ spots, own s = own s' → s = s')
    (hsep : ∀ d ∈ metrology, d.id ∈ moved → ∀ d' ∈ metrology, d'.id ∈ moved → d ≠ d' → 2 * R ≤ dist2 d.xy d'.xy) (s : Spot) (d : Dev κ) :
    (∃ r ∈ out.getD [], r.spot = s ∧ r.dev = d) ↔ s ∈ spots ∧ d = own s ∧ minDist < dist2 s.xy d.xy := by
  obtain ⟨-, c2, c3, -, c5⟩ := C75_rows env hg al r2z metrology moved spots maxRadius minDist out h
  have hpin : ∀ s0 ∈ spots, ∀ d ∈ metrology, d.id ∈ moved → dist2 s0.xy d.xy < R → d = own s0 := by
    intro s0 hs0 d hd hm hlt
    obtain ⟨o1, o2, o3⟩ := hown s0 hs0
    by_contra hne
    have h1 := hsep d hd hm _ o1 o2 hne
    have h2 := dist2_triangle d.xy s0.xy (own s0).xy
    rw [Fid.dist2_comm d.xy s0.xy] at h2
    linarith
  constructor
  · rintro ⟨r, hr, rfl, rfl⟩
    obtain ⟨q1, q2, -, q4, -, q6, -⟩ := c2 r hr
    have hs : r.spot ∈ spots := c3.subset (List.mem_map_of_mem hr)
    obtain ⟨o1, o2, o3⟩ := hown _ hs
    exact ⟨hs, hpin _ hs _ q1 q2 (lt_of_le_of_lt (q6 _ o1 o2) o3), q4⟩
  · rintro ⟨hs, rfl, hd⟩
    obtain ⟨o1, o2, o3⟩ := hown s hs
    have hnn : 0 ≤ dist2 s.xy (own s).xy := Real.sqrt_nonneg _
    obtain ⟨s0, hs0, k1, k2⟩ := c5 s hs (own s) o1 o2 (by
      intro d' hd' hm' hne
      have h1 := hsep _ o1 o2 d' hd' hm' (Ne.symm hne)
      have h2 := dist2_triangle (own s).xy s.xy d'.xy
      rw [Fid.dist2_comm (own s).xy s.xy] at h2
      linarith) (by
      intro d' hd' hm' e
      by_contra hne
      have h1 := hsep d' hd' hm' _ o1 o2 hne
      rw [e, Fid.dist2_self] at h1
      linarith) (lt_of_lt_of_le o3 hR)
    have : s0 = s := hinj s0 hs0 s hs (hpin s0 hs0 _ o1 o2 (lt_of_le_of_lt k1 o3)).symm
    subst this
    exact k2 hd

/-- A petal alignment that does nothing. -/
def still : Model.Ptl2fp.Dict := fun _ => some ⟨0, 0, 0, 0, 0, 0⟩

theorem mkRow_still {κ : Type} (req : List (Dev κ)) (q : Spot × ℕ) (d : Dev κ) (h : req[q.2]? = some d) :
    ∃ r, mkRow still (fun _ => 0) req q = .ok r := by
  unfold mkRow at?
  rw [h]
  exact ⟨_, rfl⟩

theorem label_still {κ : Type} [DecidableEq κ] (env : Env) (hg : Good env) (metrology : List (Dev κ)) (moved : List κ) (spots : List Spot)
    (maxRadius minDist : ℝ) : ∃ out, label env still (fun _ => 0) metrology moved spots maxRadius minDist = .ok out := by
  obtain ⟨m1, -⟩ := ml_spec env hg (spots.map Spot.xy) ((metrology.filter fun d => d.id ∈ moved).map Dev.xy)
  have hrun : ∀ l : List (Spot × ℕ), (∀ q ∈ l, ∃ d, (metrology.filter fun d => d.id ∈ moved)[q.2]? = some d) →
      ∃ rows, l.mapM (mkRow still (fun _ => 0) (metrology.filter fun d => d.id ∈ moved)) = .ok rows := by
    intro l
    induction l with
    | nil => intro _; exact ⟨[], rfl⟩
    | cons q l ih =>
      intro hq
      obtain ⟨rows, e⟩ := ih fun q' h' => hq q' (by simp [h'])
      obtain ⟨d, hd⟩ := hq q (by simp)
      obtain ⟨r, er⟩ := mkRow_still _ q d hd
      refine ⟨r :: rows, ?_⟩
      rw [List.mapM_cons, er, e]
      rfl
  obtain ⟨rows, e⟩ := hrun (identify env spots ((metrology.filter fun d => d.id ∈ moved).map Dev.xy) maxRadius) (by
    rintro ⟨s, j⟩ hq
    obtain ⟨i, d, k1, k2, k3⟩ := (mem_identify _ _ _ _ _ _).1 hq
    obtain ⟨a, b, -, n2, -⟩ := m1 i j d k2 (lt_of_lt_of_le k3 le_top)
    rw [List.getElem?_map] at n2
    obtain ⟨dev, hdev, -⟩ := Option.map_eq_some_iff.1 n2
    exact ⟨dev, hdev⟩)
  unfold label
  dsimp only
  rw [e]
  exact ⟨_, rfl⟩

theorem dist2_axis (a b : ℝ) : dist2 (a, 0) (b, 0) = |a - b| := by
  unfold dist2
  rw [show ((a, (0 : ℝ)).1 - (b, (0 : ℝ)).1) ^ 2 + ((a, (0 : ℝ)).2 - (b, (0 : ℝ)).2) ^ 2 = (a - b) ^ 2 by simp, Real.sqrt_sq_eq_abs]

/-- **C75** (finding) Two requested neighbours 10.4 mm apart, both fibres within 6 mm of their own centres: the fibre of the first is
written under the name of the second, and the first is missing. -/
theorem C75_neighbours (env : Env) (hg : Good env) :
    let A : Dev ℕ := ⟨1, (0, 0), 0⟩
    let B : Dev ℕ := ⟨2, (10.4, 0), 0⟩
    let sA : Spot := ⟨(0, 0), (5.5, 0)⟩
    let sB : Spot := ⟨(1, 0), (16, 0)⟩
    dist2 sA.xy A.xy < 6 ∧ dist2 sB.xy B.xy < 6 ∧
    ∃ rows, label env still (fun _ => 0) [A, B] [1, 2] [sA, sB] 7 3 = .ok (some rows) ∧
      ∀ s d, (∃ r ∈ rows, r.spot = s ∧ r.dev = d) ↔ s = sA ∧ d = B := by
  intro A B sA sB
  have e1 : dist2 sA.xy A.xy = 5.5 := by
    show dist2 (5.5, 0) (0, 0) = _
    rw [dist2_axis]; norm_num
  have e2 : dist2 sA.xy B.xy = 4.9 := by
    show dist2 (5.5, 0) (10.4, 0) = _
    rw [dist2_axis, abs_of_neg (by norm_num)]; norm_num
  have e3 : dist2 sB.xy A.xy = 16 := by
    show dist2 (16, 0) (0, 0) = _
    rw [dist2_axis]; norm_num
  have e4 : dist2 sB.xy B.xy = 5.6 := by
    show dist2 (16, 0) (10.4, 0) = _
    rw [dist2_axis, abs_of_pos (by norm_num)]; norm_num
  have hAB : A ≠ B := by
    intro e
    have := congrArg Dev.id e
    simp [A, B] at this
  have hs : sA ≠ sB := by
    intro e
    have := congrArg (fun s : Spot => s.pix.1) e
    simp [sA, sB] at this
  refine ⟨by rw [e1]; norm_num, by rw [e4]; norm_num, ?_⟩
  obtain ⟨out, hout⟩ := label_still env hg [A, B] [1, 2] [sA, sB] 7 3
  obtain ⟨-, c2, c3, c4, c5⟩ := C75_rows env hg still (fun _ => 0) [A, B] [1, 2] [sA, sB] 7 3 out hout
  have c4' := c4 (by simp [A, B])
  obtain ⟨s0, hs0, k1, k2⟩ := c5 sA (by simp) B (by simp) (by simp [B]) (by
      intro d' hd' _ hne
      have : d' = A := by
        rcases List.mem_cons.1 hd' with h | h
        · exact h
        · exact absurd (by simpa using h) hne
      rw [this, e1, e2]; norm_num) (by
      intro d' hd' _ e
      rcases List.mem_cons.1 hd' with h | h
      · rw [h] at e
        have := congrArg Prod.fst e
        simp only [A, B] at this
        norm_num at this
      · simpa using h) (by rw [e2]; norm_num)
  have hs0A : s0 = sA := by
    rcases List.mem_cons.1 hs0 with h | h
    · exact h
    · have : s0 = sB := by simpa using h
      rw [this, e4, e2] at k1
      norm_num at k1
  subst hs0A
  obtain ⟨r, hr, f1, f2⟩ := k2 (by rw [e2]; norm_num)
  have honly : ∀ r' ∈ out.getD [], r'.dev = B := by
    intro r' hr'
    obtain ⟨q1, -, -, -, -, q6, -⟩ := c2 r' hr'
    have hsp : r'.spot ∈ [sA, sB] := c3.subset (List.mem_map_of_mem hr')
    rcases List.mem_cons.1 q1 with h | h
    · exfalso
      have := q6 B (by simp) (by simp [B])
      rw [h] at this
      rcases List.mem_cons.1 hsp with h' | h'
      · rw [h', e1, e2] at this; norm_num at this
      · have h'' : r'.spot = sB := by simpa using h'
        rw [h'', e3, e4] at this; norm_num at this
    · simpa using h
  cases hcase : out with
  | none => rw [hcase] at hr; cases hr
  | some rows =>
    rw [hcase] at hr c4' honly hout
    simp only [Option.getD_some] at hr c4' honly
    refine ⟨rows, hout, fun s d => ⟨?_, ?_⟩⟩
    · rintro ⟨r', hr', rfl, rfl⟩
      have h1 := honly r' hr'
      have h2 : r' = r := by
        have hinj := List.inj_on_of_nodup_map c4'
        exact hinj hr' hr (by rw [h1, f2])
      rw [h2]
      exact ⟨f1, f2⟩
    · rintro ⟨rfl, rfl⟩
      exact ⟨r, hr, f1, f2⟩

/-- **C75** (finding) The limit of 50 pixels is not applied: every nearest spot is used, whatever the distance; for instance a single spot
1000 pixels away. -/
theorem C75_no_limit (env : Env) (hg : Good env) (a b : ℝ × ℝ) : pairUp env [a] [b] = .ok [(a, b)] := by
  obtain ⟨prs, e1, e2, e3, e4⟩ := pairUp_spec env hg [a] [b] (by simp)
  obtain ⟨q, hq, -⟩ := e4 a (by simp)
  rw [e1]
  have hlen := e2.length_le
  rw [List.length_map, List.length_singleton] at hlen
  cases prs with
  | nil => cases hq
  | cons x l =>
    have hl : l = [] := by
      cases l with
      | nil => rfl
      | cons y l => simp at hlen
    subst hl
    have h1 : x.1 = a := by simpa using e2.subset (a := x.1) (by simp)
    have h2 : x.2 = b := by simpa using (e3 x (by simp)).1
    rw [← h1, ← h2]

theorem good_exists : ∃ env : Env, Good env := by
  have hs := sorts_exists (κ := WithTop ℝ)
  have : ∀ (m : ℕ) (xy : Fin m → ℝ × ℝ) (_ : 0 < m) (p : ℝ × ℝ), ∃ i, ∀ k, dist2 p (xy i) ≤ dist2 p (xy k) := by
    intro m xy h p
    have : Nonempty (Fin m) := ⟨⟨0, h⟩⟩
    exact Finite.exists_min fun i => dist2 p (xy i)
  refine ⟨⟨_, fun {m} xy h p => (this m xy h p).choose⟩, hs, ?_⟩
  intro m xy h p k
  exact (this m xy h p).choose_spec k

/-- An environment, a metrology with two devices 20 mm apart and two spots as in `C75_exact`. -/
example : ∃ (env : Env) (out : Option (List (Row ℕ))) (own : Spot → Dev ℕ), Good env ∧
    label env still (fun _ => 0) [⟨1, (0, 0), 0⟩, ⟨2, (20, 0), 0⟩] [1, 2] [⟨(0, 0), (4, 0)⟩, ⟨(1, 0), (15, 0)⟩] 7 3 = .ok out ∧
    (∀ s ∈ ([⟨(0, 0), (4, 0)⟩, ⟨(1, 0), (15, 0)⟩] : List Spot), dist2 s.xy (own s).xy < 6) ∧
    own ⟨(0, 0), (4, 0)⟩ = ⟨1, (0, 0), 0⟩ ∧ own ⟨(1, 0), (15, 0)⟩ = ⟨2, (20, 0), 0⟩ := by
  classical
  obtain ⟨env, hg⟩ := good_exists
  obtain ⟨out, h⟩ := label_still env hg ([⟨1, (0, 0), 0⟩, ⟨2, (20, 0), 0⟩] : List (Dev ℕ)) [1, 2] [⟨(0, 0), (4, 0)⟩, ⟨(1, 0), (15, 0)⟩] 7 3
  have e1 : (if (4 : ℝ) < 10 then (⟨1, (0, 0), 0⟩ : Dev ℕ) else ⟨2, (20, 0), 0⟩) = ⟨1, (0, 0), 0⟩ := if_pos (by norm_num)
  have e2 : (if (15 : ℝ) < 10 then (⟨1, (0, 0), 0⟩ : Dev ℕ) else ⟨2, (20, 0), 0⟩) = ⟨2, (20, 0), 0⟩ := if_neg (by norm_num)
  refine ⟨env, out, fun s => if s.xy.1 < 10 then ⟨1, (0, 0), 0⟩ else ⟨2, (20, 0), 0⟩, hg, h, ?_, e1, e2⟩
  intro s hs
  rcases List.mem_cons.1 hs with rfl | hs
  · simp only [e1]
    rw [dist2_axis]; norm_num
  · have : s = ⟨(1, 0), (15, 0)⟩ := by simpa using hs
    subst this
    simp only [e2]
    rw [dist2_axis, abs_of_neg (by norm_num)]; norm_num

end Verif.Props.MovingDetect
