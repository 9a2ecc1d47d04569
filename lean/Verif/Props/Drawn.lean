import Verif.Model.Drawn
import Verif.Props.RayRun
import Mathlib.Tactic

/-!
# C123: maps and series of spots drawn
-/

namespace Verif.Props.Drawn
open Verif.Py Verif.Model.Drawn
open Verif.Props.RayRun (mapM_iff bind_iff map_ok)

/-! ## Curves by the value of a column -/

theorem filter_or_perm {α : Type} (p q : α → Bool) (h : ∀ a, ¬ (p a = true ∧ q a = true)) (l : List α) :
    (l.filter p ++ l.filter q).Perm (l.filter fun a => p a || q a) := by
  induction l with
  | nil => exact List.Perm.refl _
  | cons a l ih =>
    rw [List.filter_cons, List.filter_cons, List.filter_cons]
    rcases hp : p a with _ | _ <;> rcases hq : q a with _ | _
    · exact ih
    · exact (List.perm_middle).trans (ih.cons a)
    · exact ih.cons a
    · exact absurd ⟨hp, hq⟩ (h a)

theorem parts_perm {α β : Type} [DecidableEq β] (f : α → β) (u : List β) (hu : u.Nodup) (l : List α) :
    (u.map fun b => l.filter fun a => f a = b).flatten.Perm (l.filter fun a => f a ∈ u) := by
  induction u with
  | nil => simp
  | cons b u ih =>
    rw [List.nodup_cons] at hu
    rw [List.map_cons, List.flatten_cons]
    refine ((ih hu.2).append_left _).trans ((filter_or_perm _ _ ?_ l).trans ?_)
    · intro a h
      simp only [decide_eq_true_eq] at h
      exact hu.1 (h.1 ▸ h.2)
    · rw [List.filter_congr]
      intro a _
      simp

theorem parts_all {α β : Type} [DecidableEq β] (f : α → β) (u : List β) (hu : u.Nodup) (l : List α) (h : ∀ a ∈ l, f a ∈ u) :
    (u.map fun b => l.filter fun a => f a = b).flatten.Perm l := by
  have := parts_perm f u hu l
  rwa [List.filter_eq_self.2 fun a ha => decide_eq_true (h a ha)] at this

theorem mem_unique (l : List ℤ) (x : ℤ) : x ∈ unique l ↔ x ∈ l := by
  unfold unique
  rw [Finset.mem_sort, List.mem_toFinset]

theorem unique_sorted (l : List ℤ) : (unique l).Pairwise (· < ·) := Finset.sortedLT_sort _ |>.pairwise

theorem unique_nodup (l : List ℤ) : (unique l).Nodup := Finset.sort_nodup _ _

/-! ## Buses -/

/-- **C123** plot_canbus draws one curve for each bus, in order, with exactly the devices of this bus; every device is drawn once. Without the column it exits with 12. -/
theorem C123_canbus (m : List Dev) : canbus false m = .error (.sysExit 12) ∧
    ∃ c, canbus true m = .ok c ∧ (c.map Prod.fst).Pairwise (· < ·) ∧ (c.map Prod.snd).flatten.Perm (m.map Dev.xy) ∧
      ∀ b pts, (b, pts) ∈ c ↔ (∃ d ∈ m, d.bus = b) ∧ pts = (m.filter fun d => d.bus = b).map Dev.xy := by
  refine ⟨rfl, _, rfl, ?_, ?_, ?_⟩
  · rw [List.map_map]
    show (List.map (fun b => b) _).Pairwise _
    rw [List.map_id']
    exact unique_sorted _
  · rw [List.map_map]
    have := (parts_all Dev.bus (unique (m.map Dev.bus)) (unique_nodup _) m fun d hd => (mem_unique _ _).2 (List.mem_map_of_mem hd)).map Dev.xy
    rw [List.map_flatten, List.map_map] at this
    exact this
  · intro b pts
    rw [List.mem_map]
    constructor
    · rintro ⟨b', hb, he⟩
      rw [Prod.mk.injEq] at he
      obtain ⟨rfl, rfl⟩ := he
      rw [mem_unique, List.mem_map] at hb
      exact ⟨hb, rfl⟩
    · rintro ⟨⟨d, hd, rfl⟩, rfl⟩
      exact ⟨d.bus, (mem_unique _ _).2 (List.mem_map_of_mem hd), rfl⟩

/-- **C123** (finding) Numbers of buses are those within a petal: devices of different petals are in the same curve of plot_canbus if the numbers of their buses are equal. -/
theorem C123_buses (m : List Dev) (d d' : Dev) (hd : d ∈ m) (hd' : d' ∈ m) (hb : d.bus = d'.bus) (hp : d.petal ≠ d'.petal) :
    ∃ c pts, canbus true m = .ok c ∧ (d.bus, pts) ∈ c ∧ d.xy ∈ pts ∧ d'.xy ∈ pts ∧ d.petal ≠ d'.petal := by
  obtain ⟨-, c, hc, -, -, h⟩ := C123_canbus m
  refine ⟨c, _, hc, (h d.bus _).2 ⟨⟨d, hd, rfl⟩, rfl⟩, ?_, ?_, hp⟩
  · exact List.mem_map_of_mem (List.mem_filter.2 ⟨hd, by simp⟩)
  · exact List.mem_map_of_mem (List.mem_filter.2 ⟨hd', by simp [hb]⟩)

/-! ## Metrology -/

/-- `np.unique` of texts. -/
def Uniques (u : List PyStr → List PyStr) : Prop := ∀ l, (u l).Nodup ∧ ∀ x, x ∈ u l ↔ x ∈ l

theorem uniques_dedup : Uniques List.dedup := fun l => ⟨List.nodup_dedup l, fun _ => List.mem_dedup⟩

/-- A positioner. -/
def IsPos (d : Dev) : Prop := d.type = "POS".toList

theorem petalCurve_iff (m : List Dev) (p : ℤ) (c : Label × List (ℝ × ℝ)) : petalCurve m p = .ok c ↔
    ∃ d l, (m.filter fun d => d.petal = p && d.type = "POS".toList) = d :: l ∧ c = (.petal p d.petalId, (d :: l).map Dev.xy) := by
  unfold petalCurve
  split
  · rename_i h
    constructor
    · intro e; cases e
    · rintro ⟨d, l, e, _⟩
      rw [h] at e; cases e
  · rename_i d l h
    constructor
    · intro e
      exact ⟨d, l, h, (Except.ok.inj e).symm⟩
    · rintro ⟨d', l', e, rfl⟩
      rw [h] at e
      injection e with e1 e2
      subst e1 e2
      rfl

theorem petalCurve_error (m : List Dev) (p : ℤ) (h : ∀ d ∈ m, d.petal = p → ¬ IsPos d) : petalCurve m p = .error .indexError := by
  unfold petalCurve
  have : (m.filter fun d => d.petal = p && d.type = "POS".toList) = [] := by
    rw [List.filter_eq_nil_iff]
    intro d hd
    simp only [Bool.and_eq_true, decide_eq_true_eq]
    rintro ⟨h1, h2⟩
    exact h d hd h1 h2
  rw [this]

theorem petalCurve_known (m : List Dev) (p : ℤ) : (∃ c, petalCurve m p = .ok c) ∨ petalCurve m p = .error .indexError := by
  unfold petalCurve
  split
  · exact Or.inr rfl
  · exact Or.inl ⟨_, rfl⟩

theorem mapM_index (f : ℤ → Except PyErr (Label × List (ℝ × ℝ))) (hf : ∀ p, (∃ c, f p = .ok c) ∨ f p = .error .indexError) (l : List ℤ) :
    ((∃ c, l.mapM f = .ok c) ∧ ∀ p ∈ l, ∃ c, f p = .ok c) ∨ (l.mapM f = .error .indexError ∧ ∃ p ∈ l, f p = .error .indexError) := by
  induction l with
  | nil => exact Or.inl ⟨⟨[], rfl⟩, by simp⟩
  | cons p l ih =>
    rw [List.mapM_cons]
    rcases hf p with ⟨c, hc⟩ | hc
    · rw [hc]
      rcases ih with ⟨⟨cs, h1⟩, h2⟩ | ⟨h1, q, hq, h2⟩
      · rw [h1]
        exact Or.inl ⟨⟨_, rfl⟩, by
          intro q hq
          rcases List.mem_cons.1 hq with rfl | hq
          · exact ⟨c, hc⟩
          · exact h2 q hq⟩
      · rw [h1]
        exact Or.inr ⟨rfl, q, List.mem_cons_of_mem _ hq, h2⟩
    · rw [hc]
      exact Or.inr ⟨rfl, p, List.mem_cons_self, hc⟩

theorem mem_outlines_label (m : List Dev) (ids : Option PyStr) (first : Bool) (ps : List ℤ) (c : Label × List (ℝ × ℝ)) (h : c ∈ outlines m ids first ps) :
    ∃ b, c.1 = .outline b := by
  induction ps generalizing first with
  | nil => cases h
  | cons p ps ih =>
    unfold outlines at h
    split at h
    · exact ih first h
    · rcases List.mem_cons.1 h with rfl | h
      · exact ⟨_, rfl⟩
      · exact ih false h

/-- Curves other than outlines. -/
def maps (c : List (Label × List (ℝ × ℝ))) : List (Label × List (ℝ × ℝ)) := c.filter fun e => match e.1 with
  | .outline _ => false
  | _ => true

theorem maps_outlines (m : List Dev) (ids : Option PyStr) (first : Bool) (ps : List ℤ) : maps (outlines m ids first ps) = [] := by
  unfold maps
  rw [List.filter_eq_nil_iff]
  intro c hc
  obtain ⟨b, h⟩ := mem_outlines_label m ids first ps c hc
  rw [h]
  simp

theorem forall2_points (m : List Dev) (ps : List ℤ) (cs : List (Label × List (ℝ × ℝ))) (h : List.Forall₂ (fun p c => petalCurve m p = .ok c) ps cs) :
    cs.map Prod.snd = ps.map fun p => (m.filter fun d => d.petal = p && d.type = "POS".toList).map Dev.xy := by
  induction h with
  | nil => rfl
  | cons h _ ih =>
    obtain ⟨d, l, e, rfl⟩ := (petalCurve_iff m _ _).1 h
    rw [List.map_cons, ih]
    show _ = List.map Dev.xy (List.filter _ m) :: _
    rw [e]

theorem forall2_mem (m : List Dev) (ps : List ℤ) (cs : List (Label × List (ℝ × ℝ))) (hF : List.Forall₂ (fun p c => petalCurve m p = .ok c) ps cs) (e : Label × List (ℝ × ℝ)) :
    e ∈ cs ↔ ∃ p ∈ ps, petalCurve m p = .ok e := by
  induction hF with
  | nil => simp
  | cons ha _ ih =>
    rw [List.mem_cons, ih]
    constructor
    · rintro (rfl | ⟨p, hp, h⟩)
      · exact ⟨_, List.mem_cons_self, ha⟩
      · exact ⟨p, List.mem_cons_of_mem _ hp, h⟩
    · rintro ⟨p, hp, h⟩
      rcases List.mem_cons.1 hp with rfl | hp
      · rw [ha] at h
        exact Or.inl (Except.ok.inj h).symm
      · exact Or.inr ⟨p, hp, h⟩

theorem maps_petals (m : List Dev) (ps : List ℤ) (cs : List (Label × List (ℝ × ℝ))) (h : List.Forall₂ (fun p c => petalCurve m p = .ok c) ps cs) : maps cs = cs := by
  unfold maps
  rw [List.filter_eq_self]
  intro c hc
  induction h with
  | nil => cases hc
  | cons h _ ih =>
    rcases List.mem_cons.1 hc with rfl | hc
    · obtain ⟨d, l, e, rfl⟩ := (petalCurve_iff m _ _).1 h
      rfl
    · exact ih hc

theorem maps_types (u : List PyStr → List PyStr) (m : List Dev) : maps (typeCurves u m) = typeCurves u m := by
  unfold maps typeCurves
  rw [List.filter_eq_self]
  intro c hc
  obtain ⟨t, _, rfl⟩ := List.mem_map.1 hc
  rfl

/-- **C123** plot_metrology without identifiers fails exactly if some petal has no positioner, with an IndexError. Otherwise every device is drawn exactly once, not counting outlines. -/
theorem C123_metrology (u : List PyStr → List PyStr) (hu : Uniques u) (m : List Dev) :
    (metrology u m none = .error .indexError ↔ ∃ d ∈ m, ∀ e ∈ m, e.petal = d.petal → ¬ IsPos e) ∧
    ((∀ d ∈ m, ∃ e ∈ m, e.petal = d.petal ∧ IsPos e) → ∃ c, metrology u m none = .ok c ∧ ((maps c).map Prod.snd).flatten.Perm (m.map Dev.xy)) := by
  have hgood : (∀ d ∈ m, ∃ e ∈ m, e.petal = d.petal ∧ IsPos e) → ∃ c, metrology u m none = .ok c ∧ ((maps c).map Prod.snd).flatten.Perm (m.map Dev.xy) := by
    intro h
    have hall : ∀ p ∈ unique (m.map Dev.petal), petalCurve m p ≠ .error .indexError := by
      intro p hp he
      rw [mem_unique, List.mem_map] at hp
      obtain ⟨d, hd, rfl⟩ := hp
      obtain ⟨e, he', h1, h2⟩ := h d hd
      unfold petalCurve at he
      split at he
      · rename_i h0
        rw [List.filter_eq_nil_iff] at h0
        refine h0 e he' ?_
        rw [h1, show e.type = _ from h2]
        simp
      · cases he
    rcases mapM_index (petalCurve m) (petalCurve_known m) (unique (m.map Dev.petal)) with ⟨⟨cs, hcs⟩, _⟩ | ⟨_, p, hp, he⟩
    · refine ⟨(cs ++ typeCurves u m) ++ outlines m none true (unique (m.map Dev.petal)), ?_, ?_⟩
      · unfold metrology
        dsimp only
        rw [hcs]
        rfl
      · have hF := (mapM_iff _ _ _).1 hcs
        have e1 : maps ((cs ++ typeCurves u m) ++ outlines m none true (unique (m.map Dev.petal))) = cs ++ typeCurves u m := by
          conv_rhs => rw [← maps_petals m _ cs hF, ← maps_types u m]
          have := maps_outlines m none true (unique (m.map Dev.petal))
          unfold maps at this ⊢
          rw [List.filter_append, List.filter_append, this, List.append_nil]
        rw [e1, List.map_append, List.flatten_append, forall2_points m _ _ hF]
        have hpos : ((unique (m.map Dev.petal)).map fun p => (m.filter fun d => d.petal = p && d.type = "POS".toList).map Dev.xy).flatten.Perm
            ((m.filter fun d => d.type = "POS".toList).map Dev.xy) := by
          have h1 := (parts_all Dev.petal (unique (m.map Dev.petal)) (unique_nodup _) (m.filter fun d => d.type = "POS".toList)
            fun d hd => (mem_unique _ _).2 (List.mem_map_of_mem (List.mem_filter.1 hd).1)).map Dev.xy
          rw [List.map_flatten, List.map_map] at h1
          convert h1 using 5
          rename_i p
          simp only [Function.comp, List.filter_filter]
        have htyp : ((typeCurves u m).map Prod.snd).flatten.Perm ((m.filter fun d => d.type ≠ "POS".toList).map Dev.xy) := by
          unfold typeCurves
          rw [List.map_map]
          have h1 := (parts_perm Dev.type ((u (m.map Dev.type)).filter fun t => t ≠ "POS".toList) ((hu _).1.filter _) m).map Dev.xy
          rw [List.map_flatten, List.map_map] at h1
          refine h1.trans ?_
          rw [List.filter_congr]
          intro d hd
          have : d.type ∈ u (m.map Dev.type) := ((hu _).2 _).2 (List.mem_map_of_mem hd)
          simp [List.mem_filter, this]
        refine (hpos.append htyp).trans ?_
        rw [← List.map_append]
        refine List.Perm.map _ ((filter_or_perm _ _ ?_ m).trans ?_)
        · intro a h
          simp only [ne_eq, decide_not, Bool.not_eq_true', decide_eq_true_eq, decide_eq_false_iff_not] at h
          exact h.2 h.1
        · rw [List.filter_eq_self.2]
          intro a _
          simp only [ne_eq, decide_not, Bool.or_not_self]
    · exact absurd he (hall p hp)
  refine ⟨⟨?_, ?_⟩, hgood⟩
  · intro h
    by_contra hn
    push Not at hn
    obtain ⟨c, hc, -⟩ := hgood fun d hd => by
      obtain ⟨e, h1, h2, h3⟩ := hn d hd
      exact ⟨e, h1, h2, h3⟩
    rw [h] at hc
    cases hc
  · rintro ⟨d, hd, hn⟩
    have hp : d.petal ∈ unique (m.map Dev.petal) := (mem_unique _ _).2 (List.mem_map_of_mem hd)
    rcases mapM_index (petalCurve m) (petalCurve_known m) (unique (m.map Dev.petal)) with ⟨_, h⟩ | ⟨h, _⟩
    · obtain ⟨c, hc⟩ := h _ hp
      rw [petalCurve_error m d.petal hn] at hc
      cases hc
    · unfold metrology
      dsimp only
      rw [h]
      rfl

/-- **C123** The curves of petals have the positioners of the petal, and the number of the petal is that of its first positioner; the curves of types have all devices of that type. -/
theorem C123_labels (u : List PyStr → List PyStr) (hu : Uniques u) (m : List Dev) (c : List (Label × List (ℝ × ℝ))) (h : metrology u m none = .ok c) (e : Label × List (ℝ × ℝ)) :
    e ∈ maps c ↔ (∃ d l, (m.filter fun x => x.petal = d.petal && x.type = "POS".toList) = d :: l ∧ e = (.petal d.petal d.petalId, (d :: l).map Dev.xy)) ∨
      ∃ d ∈ m, ¬ IsPos d ∧ e = (.type d.type, (m.filter fun x => x.type = d.type).map Dev.xy) := by
  unfold metrology at h
  dsimp only at h
  obtain ⟨c1, h1, h⟩ := (bind_iff _ _ _).1 h
  obtain ⟨cs, hcs, h1⟩ := (bind_iff _ _ _).1 h1
  have h := Except.ok.inj h
  have h1 := Except.ok.inj h1
  subst h1
  have hF := (mapM_iff _ _ _).1 hcs
  have e1 : maps c = cs ++ typeCurves u m := by
    conv_rhs => rw [← maps_petals m _ cs hF, ← maps_types u m]
    have := maps_outlines m none true (unique (m.map Dev.petal))
    rw [← h]
    unfold maps at this ⊢
    rw [List.filter_append, List.filter_append, this, List.append_nil]
  rw [e1, List.mem_append]
  have hmem : e ∈ cs ↔ ∃ p ∈ unique (m.map Dev.petal), petalCurve m p = .ok e :=
     forall2_mem m _ _ hF e
  rw [hmem]
  refine or_congr ?_ ?_
  · constructor
    · rintro ⟨p, hp, h⟩
      obtain ⟨d, l, h1, rfl⟩ := (petalCurve_iff m p e).1 h
      have hd : d ∈ m.filter fun d => d.petal = p && d.type = "POS".toList := by rw [h1]; exact List.mem_cons_self
      have := (List.mem_filter.1 hd).2
      simp only [Bool.and_eq_true, decide_eq_true_eq] at this
      obtain ⟨rfl, _⟩ := this
      exact ⟨d, l, h1, rfl⟩
    · rintro ⟨d, l, h1, rfl⟩
      have hd : d ∈ m.filter fun x => x.petal = d.petal && x.type = "POS".toList := by rw [h1]; exact List.mem_cons_self
      exact ⟨d.petal, (mem_unique _ _).2 (List.mem_map_of_mem (List.mem_filter.1 hd).1), (petalCurve_iff _ _ _).2 ⟨d, l, h1, rfl⟩⟩
  · unfold typeCurves
    rw [List.mem_map]
    constructor
    · rintro ⟨t, ht, rfl⟩
      rw [List.mem_filter, (hu _).2, List.mem_map] at ht
      obtain ⟨⟨d, hd, rfl⟩, h2⟩ := ht
      exact ⟨d, hd, (show d.type ≠ "POS".toList from of_decide_eq_true h2), rfl⟩
    · rintro ⟨d, hd, h2, rfl⟩
      refine ⟨d.type, ?_, rfl⟩
      rw [List.mem_filter, (hu _).2]
      exact ⟨List.mem_map_of_mem hd, decide_eq_true (show d.type ≠ "POS".toList from h2)⟩

/-- **C123** With identifiers plot_metrology never fails: positioners and fiducials are drawn in gray, and then one curve for each identifier, in the order given, which is without points for an unknown identifier. -/
theorem C123_highlighted (u : List PyStr → List PyStr) (m : List Dev) (s : PyStr) : ∃ c, metrology u m (some s) = .ok c ∧
    (maps c).map Prod.fst = .gray :: (split [','] s).map .device ∧
    ∀ e ∈ maps c, (e.1 = .gray → ∀ p, p ∈ e.2 ↔ ∃ d ∈ m, d.type ∈ ["POS".toList, "FIF".toList, "GIF".toList] ∧ d.xy = p) ∧
      (∀ i, e.1 = .device i → e.2 = (m.filter fun d => d.id = i).map Dev.xy ∧ (e.2 = [] ↔ ∀ d ∈ m, d.id ≠ i)) := by
  refine ⟨highlighted m s ++ outlines m (some s) true (unique (m.map Dev.petal)), rfl, ?_⟩
  have e1 : maps (highlighted m s ++ outlines m (some s) true (unique (m.map Dev.petal))) = highlighted m s := by
    have := maps_outlines m (some s) true (unique (m.map Dev.petal))
    unfold maps at this ⊢
    rw [List.filter_append, this, List.append_nil, List.filter_eq_self]
    intro c hc
    unfold highlighted at hc
    rcases List.mem_cons.1 hc with rfl | hc
    · rfl
    · obtain ⟨i, _, rfl⟩ := List.mem_map.1 hc
      rfl
  rw [e1]
  refine ⟨?_, ?_⟩
  · unfold highlighted
    rw [List.map_cons, List.map_map]
    rfl
  · intro e he
    unfold highlighted at he
    rcases List.mem_cons.1 he with rfl | he
    · refine ⟨fun _ p => ?_, fun i h => by cases h⟩
      simp only [List.mem_map, List.mem_filter, Bool.or_eq_true, decide_eq_true_eq, List.mem_cons, List.not_mem_nil, or_false, or_assoc, and_assoc]
    · obtain ⟨i, _, rfl⟩ := List.mem_map.1 he
      refine ⟨fun h => (nomatch h), fun j h => ?_⟩
      cases h
      refine ⟨rfl, ?_⟩
      dsimp only
      rw [List.map_eq_nil_iff, List.filter_eq_nil_iff]
      simp

/-! ## Outlines -/

theorem outlines_points (m : List Dev) (ids : Option PyStr) (first : Bool) (ps : List ℤ) : (outlines m ids first ps).map Prod.snd =
    ps.filterMap fun p => match (m.filter fun d => d.type = "GFA".toList && d.petal = p).map Dev.xy with
      | [] => none
      | a :: l => some (a :: l ++ [a]) := by
  induction ps generalizing first with
  | nil => rfl
  | cons p ps ih =>
    unfold outlines
    rw [List.filterMap_cons]
    generalize (m.filter fun d => d.type = "GFA".toList && d.petal = p).map Dev.xy = g
    cases g with
    | nil => exact ih first
    | cons a l =>
      dsimp only
      rw [List.map_cons, ih false]

theorem outlines_labels (m : List Dev) (ids : Option PyStr) (first : Bool) (ps : List ℤ) : (outlines m ids first ps).map Prod.fst =
    match (outlines m ids first ps).length with
    | 0 => []
    | n + 1 => .outline (first && ids.isNone) :: List.replicate n (.outline false) := by
  induction ps generalizing first with
  | nil => rfl
  | cons p ps ih =>
    unfold outlines
    generalize (m.filter fun d => d.type = "GFA".toList && d.petal = p).map Dev.xy = g
    cases g with
    | nil => exact ih first
    | cons a l =>
      dsimp only
      rw [List.map_cons, List.length_cons, ih false]
      rcases (outlines m ids false ps).length with _ | n
      · rfl
      · rfl

/-- **C123** For each petal with points of its GFA, in order, plot_metrology draws the closed polygon through these points in the order of the table; only the first one is labelled, and none with identifiers. -/
theorem C123_outlines (u : List PyStr → List PyStr) (m : List Dev) (ids : Option PyStr) (c : List (Label × List (ℝ × ℝ))) (h : metrology u m ids = .ok c) :
    ∃ l o, c = l ++ o ∧ (∀ e ∈ l, ∀ b, e.1 ≠ .outline b) ∧
      (∀ e ∈ o, ∃ p a pts, e.2 = a :: pts ++ [a] ∧ (m.filter fun d => d.type = "GFA".toList && d.petal = p).map Dev.xy = a :: pts) ∧
      (∀ d ∈ m, d.type = "GFA".toList → ∃ e ∈ o, d.xy ∈ e.2) ∧
      o.map Prod.fst = (match o.length with
        | 0 => []
        | n + 1 => .outline ids.isNone :: List.replicate n (.outline false)) := by
  unfold metrology at h
  dsimp only at h
  obtain ⟨l, hl, h⟩ := (bind_iff _ _ _).1 h
  have h := Except.ok.inj h
  refine ⟨l, outlines m ids true (unique (m.map Dev.petal)), h.symm, ?_, ?_, ?_, ?_⟩
  · rcases ids with _ | s
    · obtain ⟨cs, hcs, hl⟩ := (bind_iff _ _ _).1 hl
      have hl := Except.ok.inj hl
      have hF := (mapM_iff _ _ _).1 hcs
      have e1 : maps l = l := by
        rw [← hl]
        conv_rhs => rw [← maps_petals m _ cs hF, ← maps_types u m]
        unfold maps
        rw [List.filter_append]
      unfold maps at e1
      rw [List.filter_eq_self] at e1
      intro e he b hb
      have := e1 e he
      rw [hb] at this
      cases this
    · have hl := Except.ok.inj hl
      intro e he b hb
      rw [← hl] at he
      unfold highlighted at he
      rcases List.mem_cons.1 he with rfl | he
      · cases hb
      · obtain ⟨i, _, rfl⟩ := List.mem_map.1 he
        cases hb
  · intro e he
    have h2 : e.2 ∈ (outlines m ids true (unique (m.map Dev.petal))).map Prod.snd := List.mem_map_of_mem he
    rw [outlines_points, List.mem_filterMap] at h2
    obtain ⟨p, _, hp⟩ := h2
    refine ⟨p, ?_⟩
    generalize (m.filter fun d => d.type = "GFA".toList && d.petal = p).map Dev.xy = g at hp
    cases g with
    | nil => cases hp
    | cons a pts => exact ⟨a, pts, (Option.some.inj hp).symm, rfl⟩
  · intro d hd ht
    have hmem : d.xy ∈ (m.filter fun x => x.type = "GFA".toList && x.petal = d.petal).map Dev.xy := List.mem_map_of_mem (List.mem_filter.2 ⟨hd, by simp [ht]⟩)
    generalize hg : (m.filter fun x => x.type = "GFA".toList && x.petal = d.petal).map Dev.xy = g at hmem
    cases g with
    | nil => cases hmem
    | cons a pts =>
      have h2 : a :: pts ++ [a] ∈ (outlines m ids true (unique (m.map Dev.petal))).map Prod.snd := by
        rw [outlines_points, List.mem_filterMap]
        refine ⟨d.petal, (mem_unique _ _).2 (List.mem_map_of_mem hd), ?_⟩
        rw [hg]
      obtain ⟨e, he, h3⟩ := List.mem_map.1 h2
      exact ⟨e, he, by rw [h3]; exact List.mem_append_left _ hmem⟩
  · rw [outlines_labels, Bool.true_and]

/-! ## Series of pixels -/

/-- A table with the columns used. -/
def Complete (t : Tab) : Prop := t.hasX = true ∧ t.hasY = true ∧ t.hasLoc = true

/-- What the files have of a location, with the numbers of files, counted from `k`. -/
def obs (files : List Tab) (k : ℕ) (loc : ℤ) : List (ℕ × ℝ × ℝ) :=
  (files.zipIdx k).flatMap fun f => (f.1.rows.filter fun s => s.loc = loc && decide (0 < loc)).map fun s => (f.2, s.pix)

theorem addSpot_get (n : ℕ) (d : Dict ℤ (List (ℕ × ℝ × ℝ))) (s : Spot) (loc : ℤ) :
    (addSpot n d s).get? loc = if s.loc = loc then some ((d.get? loc).getD [] ++ [(n, s.pix)]) else d.get? loc := by
  unfold addSpot
  rcases h : d.get? s.loc with _ | l
  · dsimp only
    rw [Dict.get?_set]
    split_ifs with h1
    · subst h1
      rw [h]
      rfl
    · rfl
  · dsimp only
    rw [Dict.get?_set]
    split_ifs with h1
    · subst h1
      rw [h]
      rfl
    · rfl

theorem addSpots_get (n : ℕ) (l : List Spot) (d : Dict ℤ (List (ℕ × ℝ × ℝ))) (loc : ℤ) :
    ((l.foldl (addSpot n) d).get? loc).getD [] = (d.get? loc).getD [] ++ (l.filter fun s => s.loc = loc).map fun s => (n, s.pix) := by
  induction l generalizing d with
  | nil => simp
  | cons s l ih =>
    rw [List.foldl_cons, ih, addSpot_get, List.filter_cons]
    by_cases h : s.loc = loc
    · simp [h]
    · simp [h]

theorem addSpots_keys (n : ℕ) (l : List Spot) (d : Dict ℤ (List (ℕ × ℝ × ℝ))) (hk : (Dict.keys d).Nodup) (hv : ∀ loc v, d.get? loc = some v → v ≠ []) :
    (Dict.keys (l.foldl (addSpot n) d)).Nodup ∧ ∀ loc v, (l.foldl (addSpot n) d).get? loc = some v → v ≠ [] := by
  induction l generalizing d with
  | nil => exact ⟨hk, hv⟩
  | cons s l ih =>
    rw [List.foldl_cons]
    refine ih _ ?_ ?_
    · unfold addSpot
      split
      · exact Dict.nodup_keys_set _ _ _ hk
      · exact Dict.nodup_keys_set _ _ _ hk
    · intro loc v h
      rw [addSpot_get] at h
      split_ifs at h
      · rw [← Option.some.inj h]
        simp
      · exact hv loc v h

theorem spotFile_ok (st st' : Series) (f : Tab × ℕ) : spotFile st f = .ok st' ↔ Complete f.1 ∧
    st' = ⟨st.points ++ [(f.1.rows.filter fun s => s.loc > 0).map Spot.pix], (f.1.rows.filter fun s => s.loc > 0).foldl (addSpot f.2) st.series⟩ := by
  unfold spotFile Complete
  cases f.1.hasX <;> cases f.1.hasY <;> cases f.1.hasLoc <;> simp [eq_comm]

theorem spotFiles (files : List Tab) (k : ℕ) (st st' : Series) (hk : (Dict.keys st.series).Nodup) (hv : ∀ loc v, st.series.get? loc = some v → v ≠ [])
    (h : (files.zipIdx k).foldlM spotFile st = .ok st') :
    (∀ t ∈ files, Complete t) ∧ st'.points = st.points ++ files.map (fun t => (t.rows.filter fun s => s.loc > 0).map Spot.pix) ∧
    (Dict.keys st'.series).Nodup ∧ (∀ loc v, st'.series.get? loc = some v → v ≠ []) ∧
    ∀ loc, (st'.series.get? loc).getD [] = (st.series.get? loc).getD [] ++ obs files k loc := by
  induction files generalizing k st with
  | nil =>
    have h := Except.ok.inj h
    subst h
    refine ⟨by simp, by simp, hk, hv, by simp [obs]⟩
  | cons t files ih =>
    rw [List.zipIdx_cons, List.foldlM_cons] at h
    obtain ⟨st1, h1, h⟩ := (bind_iff _ _ _).1 h
    obtain ⟨hc, rfl⟩ := (spotFile_ok _ _ _).1 h1
    obtain ⟨n1, n2⟩ := addSpots_keys k (t.rows.filter fun s => s.loc > 0) st.series hk hv
    obtain ⟨g1, g2, g3, g4, g5⟩ := ih (k + 1) _ n1 n2 h
    refine ⟨?_, ?_, g3, g4, ?_⟩
    · intro x hx
      rcases List.mem_cons.1 hx with rfl | hx
      · exact hc
      · exact g1 x hx
    · rw [g2, List.map_cons]
      simp
    · intro loc
      rw [g5 loc]
      dsimp only
      rw [addSpots_get]
      unfold obs
      rw [List.zipIdx_cons, List.flatMap_cons, List.append_assoc, List.filter_filter]
      congr 3
      apply List.filter_congr
      intro s _
      by_cases h : s.loc = loc
      · subst h; simp
      · simp [h]

theorem spotFiles_total (files : List Tab) (k : ℕ) (st : Series) (h : ∀ t ∈ files, Complete t) : ∃ st', (files.zipIdx k).foldlM spotFile st = .ok st' := by
  induction files generalizing k st with
  | nil => exact ⟨st, rfl⟩
  | cons t files ih =>
    rw [List.zipIdx_cons, List.foldlM_cons, (spotFile_ok _ _ _).2 ⟨h t List.mem_cons_self, rfl⟩]
    exact ih _ _ fun x hx => h x (List.mem_cons_of_mem _ hx)

theorem spotFiles_error (pre post : List Tab) (t : Tab) (k : ℕ) (st : Series) (h : ∀ x ∈ pre, Complete x) (e : PyErr) (he : ∀ st n, spotFile st (t, n) = .error e) :
    ((pre ++ t :: post).zipIdx k).foldlM spotFile st = .error e := by
  induction pre generalizing k st with
  | nil =>
    rw [List.nil_append, List.zipIdx_cons, List.foldlM_cons, he]
    rfl
  | cons x pre ih =>
    rw [List.cons_append, List.zipIdx_cons, List.foldlM_cons, (spotFile_ok _ _ _).2 ⟨h x List.mem_cons_self, rfl⟩]
    exact ih _ _ fun y hy => h y (List.mem_cons_of_mem _ hy)

/-- **C123** plot_fvc_spots succeeds exactly if there is a file and all have the columns XPIX, YPIX and LOCATION. The first file without them ends it, with exit code 12 without XPIX and a
KeyError otherwise; without files there is a NameError. -/
theorem C123_spots_ends (files : List Tab) : ((∃ r, fvcSpots files = .ok r) ↔ files ≠ [] ∧ ∀ t ∈ files, Complete t) ∧
    (files = [] → fvcSpots files = .error .nameError) ∧
    (∀ pre t post, files = pre ++ t :: post → (∀ x ∈ pre, Complete x) → ¬ Complete t → fvcSpots files = .error (if t.hasX = false then .sysExit 12 else .keyError)) := by
  refine ⟨⟨?_, ?_⟩, ?_, ?_⟩
  · rintro ⟨r, h⟩
    unfold fvcSpots at h
    obtain ⟨st, h1, h⟩ := (bind_iff _ _ _).1 h
    refine ⟨?_, (spotFiles files 0 ⟨[], []⟩ st (by simp [Dict.keys]) (by simp [Dict.get?]) h1).1⟩
    rintro rfl
    cases h
  · rintro ⟨hn, h⟩
    obtain ⟨st, h1⟩ := spotFiles_total files 0 ⟨[], []⟩ h
    unfold fvcSpots
    rw [h1, List.getLast?_eq_some_getLast hn]
    by_cases hl : files.length > 1
    · exact ⟨_, if_pos hl⟩
    · exact ⟨_, if_neg hl⟩
  · rintro rfl
    rfl
  · rintro pre t post rfl hp ht
    have := spotFiles_error pre post t 0 ⟨[], []⟩ hp (if t.hasX = false then .sysExit 12 else .keyError) fun st n => by
      unfold spotFile
      unfold Complete at ht
      dsimp only
      revert ht
      cases t.hasX <;> cases t.hasY <;> cases t.hasLoc <;> simp
    unfold fvcSpots
    rw [this]
    rfl

theorem mem_iff_get {κ ν : Type} [DecidableEq κ] (d : Dict κ ν) (hk : (Dict.keys d).Nodup) (k : κ) (v : ν) : (k, v) ∈ d ↔ d.get? k = some v := by
  induction d with
  | nil => simp [Dict.get?]
  | cons e d ih =>
    obtain ⟨a, b⟩ := e
    rw [Dict.keys, List.map_cons, List.nodup_cons] at hk
    rw [List.mem_cons, Dict.get?, ih hk.2]
    by_cases h : a = k
    · subst h
      rw [if_pos rfl, Prod.mk.injEq, Option.some.injEq]
      constructor
      · rintro (⟨-, h⟩ | h)
        · exact h.symm
        · exact absurd ((Dict.mem_keys d a).2 ⟨v, h⟩) hk.1
      · intro h
        exact Or.inl ⟨rfl, h.symm⟩
    · rw [if_neg h, Prod.mk.injEq]
      constructor
      · rintro (⟨h1, -⟩ | h1)
        · exact absurd h1.symm h
        · exact h1
      · exact Or.inr

/-- A list without its mean: of sum zero and with the same differences. -/
def Centred (x v : List ℝ) : Prop := v.sum = 0 ∧ v.length = x.length ∧ ∃ m, List.Forall₂ (fun a b => b = a - m) x v

theorem centred_spec (l : List ℝ) (h : l ≠ []) : Centred l (centred l) := by
  refine ⟨?_, by simp [centred], l.sum / l.length, ?_⟩
  · have key : ∀ (m : ℝ) (l : List ℝ), (l.map fun x => x - m).sum = l.sum - l.length * m := by
      intro m l
      induction l with
      | nil => simp
      | cons a l ih =>
        rw [List.map_cons, List.sum_cons, ih, List.sum_cons, List.length_cons]
        push_cast
        ring
    unfold centred
    rw [key]
    have : (l.length : ℝ) ≠ 0 := by
      rw [Nat.cast_ne_zero, Ne, List.length_eq_zero_iff]
      exact h
    field_simp
    ring
  · unfold centred
    rw [List.forall₂_map_right_iff]
    exact List.forall₂_same.2 fun _ _ => rfl

/-- **C123** plot_fvc_spots draws the spots with a location above 0 of every file. With several files there is one series for each such location, with exactly the spots of this location in the order of the
files, the numbers of the files, and pixels with their mean subtracted. With one file there is none. -/
theorem C123_series (files : List Tab) (r : SpotPlot) (h : fvcSpots files = .ok r) :
    r.points = files.map (fun t => (t.rows.filter fun s => s.loc > 0).map Spot.pix) ∧
    (files.length ≤ 1 → r.xs = [] ∧ r.ys = []) ∧
    (1 < files.length → (r.xs.map Prod.fst).Nodup ∧ r.ys.map Prod.fst = r.xs.map Prod.fst ∧
      (∀ loc, loc ∈ r.xs.map Prod.fst ↔ 0 < loc ∧ ∃ t ∈ files, ∃ s ∈ t.rows, s.loc = loc) ∧
      (∀ loc ns v, (loc, ns, v) ∈ r.xs → ns = (obs files 0 loc).map Prod.fst ∧ Centred ((obs files 0 loc).map fun o => o.2.1) v) ∧
      (∀ loc ns v, (loc, ns, v) ∈ r.ys → ns = (obs files 0 loc).map Prod.fst ∧ Centred ((obs files 0 loc).map fun o => o.2.2) v)) := by
  unfold fvcSpots at h
  obtain ⟨st, h1, h⟩ := (bind_iff _ _ _).1 h
  obtain ⟨_, g2, g3, g4, g5⟩ := spotFiles files 0 ⟨[], []⟩ st (by simp [Dict.keys]) (by simp [Dict.get?]) h1
  split at h
  · cases h
  · dsimp only at h
    have g6 : ∀ loc v, st.series.get? loc = some v → v = obs files 0 loc ∧ obs files 0 loc ≠ [] := by
      intro loc v hv
      have := g5 loc
      rw [hv] at this
      have : v = obs files 0 loc := this
      exact ⟨this, this ▸ g4 loc v hv⟩
    have g7 : ∀ loc, loc ∈ Dict.keys st.series ↔ obs files 0 loc ≠ [] := by
      intro loc
      rw [Dict.mem_keys]
      constructor
      · rintro ⟨v, hv⟩
        exact (g6 loc v hv).2
      · intro hn
        rcases hg : st.series.get? loc with _ | v
        · have := g5 loc
          rw [hg] at this
          exact absurd this.symm hn
        · exact ⟨v, rfl⟩
    by_cases hl : files.length > 1
    · rw [if_pos hl] at h
      have h := Except.ok.inj h
      subst h
      dsimp only
      have hkeys : ∀ f : List (ℕ × ℝ × ℝ) → List ℕ × List ℝ, (st.series.map fun e => (e.1, f e.2)).map Prod.fst = Dict.keys st.series := by
        intro f
        rw [List.map_map]
        rfl
      refine ⟨by rw [g2]; rfl, fun h => by omega, fun _ => ⟨?_, ?_, ?_, ?_, ?_⟩⟩
      · rw [hkeys fun l => (l.map Prod.fst, centred (l.map fun p => p.2.1))]
        exact g3
      · rw [hkeys fun l => (l.map Prod.fst, centred (l.map fun p => p.2.1)), hkeys fun l => (l.map Prod.fst, centred (l.map fun p => p.2.2))]
      · intro loc
        rw [hkeys fun l => (l.map Prod.fst, centred (l.map fun p => p.2.1)), g7]
        unfold obs
        rw [Ne, List.flatMap_eq_nil_iff]
        push Not
        constructor
        · rintro ⟨⟨t, n⟩, hm, hne⟩
          obtain ⟨s, hs⟩ := List.exists_mem_of_ne_nil _ (fun e => hne (by rw [e]; rfl) : (t.rows.filter fun s => s.loc = loc && decide (0 < loc)) ≠ [])
          rw [List.mem_filter, Bool.and_eq_true, decide_eq_true_eq, decide_eq_true_eq] at hs
          exact ⟨hs.2.2, t, (List.mem_zipIdx' hm).2 ▸ List.getElem_mem _, s, hs.1, hs.2.1⟩
        · rintro ⟨hp, t, ht, s, hs, rfl⟩
          obtain ⟨i, hi, rfl⟩ := List.getElem_of_mem ht
          refine ⟨(files[i], i), ?_, ?_⟩
          · rw [List.mem_zipIdx_iff_getElem?]
            exact List.getElem?_eq_getElem hi
          · intro e
            rw [List.map_eq_nil_iff, List.filter_eq_nil_iff] at e
            exact e s hs (by simp [hp])
      · intro loc ns v hm
        obtain ⟨⟨l, w⟩, he, h2⟩ := List.mem_map.1 hm
        rw [Prod.mk.injEq, Prod.mk.injEq] at h2
        obtain ⟨rfl, rfl, rfl⟩ := h2
        obtain ⟨rfl, hne⟩ := g6 l w ((mem_iff_get _ g3 l w).1 he)
        exact ⟨rfl, centred_spec _ (by simpa using hne)⟩
      · intro loc ns v hm
        obtain ⟨⟨l, w⟩, he, h2⟩ := List.mem_map.1 hm
        rw [Prod.mk.injEq, Prod.mk.injEq] at h2
        obtain ⟨rfl, rfl, rfl⟩ := h2
        obtain ⟨rfl, hne⟩ := g6 l w ((mem_iff_get _ g3 l w).1 he)
        exact ⟨rfl, centred_spec _ (by simpa using hne)⟩
    · rw [if_neg hl] at h
      have h := Except.ok.inj h
      subst h
      exact ⟨by rw [g2]; rfl, fun _ => ⟨rfl, rfl⟩, fun h => absurd h hl⟩

/-- **C123** With one file, spots with the pinhole number 4 are marked. (finding) With several files none is, though each file is drawn. -/
theorem C123_marked (files : List Tab) (r : SpotPlot) (h : fvcSpots files = .ok r) :
    (∀ t, files = [t] → r.marked = if t.hasPin = true then (t.rows.filter fun s => s.pinhole = 4).map Spot.pix else []) ∧ (1 < files.length → r.marked = []) := by
  unfold fvcSpots at h
  obtain ⟨st, h1, h⟩ := (bind_iff _ _ _).1 h
  constructor
  · rintro t rfl
    dsimp only [List.getLast?] at h
    rw [if_neg (by simp)] at h
    have h := Except.ok.inj h
    subst h
    simp
  · intro hl
    split at h
    · cases h
    · dsimp only at h
      rw [if_pos hl] at h
      have h := Except.ok.inj h
      subst h
      have : ¬ files.length - 1 = 0 := by omega
      simp [this]

/-! ## Positions of locations -/

theorem addFile_get (t : List Spot) (ls : List ℕ) (d : Dict ℕ (List (List ((ℝ × ℝ) × (ℝ × ℝ))))) (l : ℕ) :
    ((ls.foldl (addFile t) d).get? l).getD [] = (d.get? l).getD [] ++ List.replicate (ls.count l) ((t.filter fun s => s.loc = (l : ℤ)).map fun s => (s.fp, s.pix)) := by
  induction ls generalizing d with
  | nil => simp
  | cons a ls ih =>
    rw [List.foldl_cons, ih, addFile, Dict.get?_set]
    by_cases h : a = l
    · subst h
      rw [if_pos rfl, List.count_cons_self, List.replicate_succ]
      simp
    · rw [if_neg h, List.count_cons_of_ne h]

theorem empty_get (ls : List ℕ) (d : Dict ℕ (List (List ((ℝ × ℝ) × (ℝ × ℝ))))) (hd : ∀ l, (d.get? l).getD [] = []) (l : ℕ) :
    ((ls.foldl (fun d l => Dict.set d l []) d).get? l).getD [] = [] := by
  induction ls generalizing d with
  | nil => exact hd l
  | cons a ls ih =>
    rw [List.foldl_cons]
    refine ih _ fun k => ?_
    rw [Dict.get?_set]
    split_ifs
    · rfl
    · exact hd k

theorem addFiles_get (files : List (List Spot)) (ls : List ℕ) (d : Dict ℕ (List (List ((ℝ × ℝ) × (ℝ × ℝ))))) (l : ℕ) :
    ((files.foldl (fun d t => ls.foldl (addFile t) d) d).get? l).getD [] = (d.get? l).getD [] ++
      files.flatMap fun t => List.replicate (ls.count l) ((t.filter fun s => s.loc = (l : ℤ)).map fun s => (s.fp, s.pix)) := by
  induction files generalizing d with
  | nil => simp
  | cons t files ih =>
    rw [List.foldl_cons, ih, addFile_get, List.flatMap_cons, List.append_assoc]

/-- **C123** plot_positioner draws, for every location of the list and in its order, the spots of all files with this location, in the order of the files. (finding) With a location given `k` times, every file
is used `k` times in each of its `k` curves. It fails exactly if the list is not accepted. -/
theorem C123_positioner (files : List (List Spot)) (locations : PyStr) :
    (∀ e, positioner files locations = .error e ↔ Model.Util.parseFibers (some locations) = .error e) ∧
    ∀ ls, Model.Util.parseFibers (some locations) = .ok ls → positioner files locations = .ok (ls.map fun l =>
      (l, files.flatMap fun t => List.replicate (ls.count l) ((t.filter fun s => s.loc = (l : ℤ)).map fun s => (s.fp, s.pix)))) := by
  unfold positioner
  rcases h : Model.Util.parseFibers (some locations) with e | ls
  · refine ⟨fun e' => ?_, fun ls h => by cases h⟩
    show Except.error e = Except.error e' ↔ Except.error e = Except.error e'
    rw [Except.error.injEq, Except.error.injEq]
  · refine ⟨fun e' => ⟨(nomatch ·), (nomatch ·)⟩, fun ls' h' => ?_⟩
    cases h'
    show Except.ok _ = _
    congr 1
    apply List.map_congr_left
    intro l _
    rw [addFiles_get, empty_get ls [] (by simp [Dict.get?]), List.nil_append]

/-- **C123** With different locations each file is used once. -/
theorem C123_once (files : List (List Spot)) (locations : PyStr) (ls : List ℕ) (h : Model.Util.parseFibers (some locations) = .ok ls) (hn : ls.Nodup) :
    positioner files locations = .ok (ls.map fun l => (l, files.map fun t => (t.filter fun s => s.loc = (l : ℤ)).map fun s => (s.fp, s.pix))) := by
  rw [(C123_positioner files locations).2 ls h]
  congr 1
  apply List.map_congr_left
  intro l hl
  rw [List.count_eq_one_of_mem hn hl]
  simp only [List.replicate_one, Prod.mk.injEq, true_and]
  exact List.flatMap_pure_eq_map _ files

/-! ## Examples -/

example : ∃ ls, Model.Util.parseFibers (some "4040:4042,7".toList) = .ok ls ∧ ls.Nodup ∧ ls = [4040, 4041, 7] := ⟨_, by rfl, by decide, rfl⟩

end Verif.Props.Drawn
