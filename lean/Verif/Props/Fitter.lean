import Verif.Model.Fitter
import Verif.Model.FitHandler
import Mathlib.Data.List.Basic
import Mathlib.Tactic.Tauto

namespace Verif.Props
open Verif.Py Verif.Model.Fitter

namespace Ftr

theorem get_update {ν : Type} (v : ν) (ks : List PyStr) (k : PyStr) : ∀ d : Dict PyStr ν,
    (update d (ks.map fun k => (k, v))).get? k = if k ∈ ks then some v else d.get? k := by
  unfold update
  induction ks with
  | nil => intro d; simp
  | cons a ks ih =>
    intro d
    rw [List.map_cons, List.foldl_cons, ih, Dict.get?_set]
    by_cases h1 : k ∈ ks
    · simp [h1]
    · by_cases h2 : a = k
      · simp [h2]
      · have : k ≠ a := fun h => h2 h.symm
        simp [h1, h2, this]

theorem mem_keys_update {ν : Type} (l : List (PyStr × ν)) (k : PyStr) : ∀ d : Dict PyStr ν,
    k ∈ Dict.keys (update d l) ↔ k ∈ l.map Prod.fst ∨ k ∈ Dict.keys d := by
  unfold update
  induction l with
  | nil => intro d; simp
  | cons a l ih =>
    intro d
    rw [List.foldl_cons, ih, Dict.mem_keys_set]
    simp only [List.map_cons, List.mem_cons]
    tauto

theorem eps_not_base : ∀ s, ∀ k ∈ epsKeys s, k ∉ allKeys := by
  intro s k hk hb
  have h1 : k.take 8 = "EPSILON_".toList := by
    unfold epsKeys at hk
    rcases List.mem_cons.1 hk with rfl | hk
    · simp
    · rw [List.mem_singleton.1 hk]; simp
  have h2 : ∀ k ∈ allKeys, k.take 8 ≠ "EPSILON_".toList := by decide
  exact h2 k hb h1

theorem eps_isEps : ∀ s, ∀ k ∈ epsKeys s, isEps k = true := by
  intro s k hk
  unfold epsKeys at hk
  have : ∀ t : PyStr, isEps ("EPSILON_T_".toList ++ t) = true ∧ isEps ("EPSILON_P_".toList ++ t) = true := by
    intro t
    unfold isEps
    constructor <;> simp [pyIn, List.isPrefixOf]
  rcases List.mem_cons.1 hk with rfl | hk
  · exact (this _).1
  · rw [List.mem_singleton.1 hk]; exact (this _).2

theorem base_not_eps : ∀ k ∈ allKeys, isEps k = false := by decide

/-- The bounds dictionary still has its original entries. -/
def Intact (bnd : Dict PyStr (ℝ × ℝ)) : Prop := ∀ k ∈ allKeys, bnd.get? k = defaultBounds.get? k

theorem lookups_congr {ν : Type} (d d' : Dict PyStr ν) (l : List PyStr) (h : ∀ k ∈ l, d.get? k = d'.get? k) :
    lookups d l = lookups d' l := by
  induction l with
  | nil => rfl
  | cons a l ih =>
    unfold lookups
    rw [h a (by simp), ih fun k hk => h k (by simp [hk])]

theorem get_addEpsBounds {δ : Type} (i : Input δ) (bnd : Dict PyStr (ℝ × ℝ)) (k : PyStr) :
    (addEpsBounds i bnd).get? k =
      if i.mode = .static ∧ k ∈ i.seqs.flatMap epsKeys then some (-200, 200) else bnd.get? k := by
  unfold addEpsBounds
  cases i.mode with
  | static => simp only [get_update, true_and]
  | dynamic => simp

theorem mem_addEps {δ : Type} (i : Input δ) (nom : Dict PyStr ℝ) (k : PyStr) :
    k ∈ Dict.keys (addEps i nom) ↔ (i.mode = .static ∧ k ∈ i.seqs.flatMap epsKeys) ∨ k ∈ Dict.keys nom := by
  unfold addEps
  cases i.mode with
  | static =>
    simp only [mem_keys_update, List.map_map, true_and]
    have : (i.seqs.flatMap epsKeys).map (Prod.fst ∘ fun k => (k, (0 : ℝ))) = i.seqs.flatMap epsKeys := List.map_id _
    rw [this]
  | dynamic => simp

theorem mem_addCircle {δ : Type} (i : Input δ) (fixed : List PyStr) (nom : Dict PyStr ℝ) (k : PyStr)
    (h : ∀ k ∈ allKeys, k ∈ Dict.keys nom) : k ∈ Dict.keys (addCircle i fixed nom) ↔ k ∈ Dict.keys nom := by
  have hx : "OFFSET_X".toList ∈ Dict.keys nom := h _ (by decide)
  have hy : "OFFSET_Y".toList ∈ Dict.keys nom := h _ (by decide)
  have key : ∀ (c : Prop) [Decidable c] (d : Dict PyStr ℝ) (q : PyStr) (v : ℝ),
      (k ∈ Dict.keys d ↔ k ∈ Dict.keys nom) → q ∈ Dict.keys nom →
      (k ∈ Dict.keys (if c then d else Dict.set d q v) ↔ k ∈ Dict.keys nom) := by
    intro c _ d q v h1 h2
    split_ifs
    · exact h1
    · rw [Dict.mem_keys_set, h1]
      exact ⟨fun h => h.elim (fun e => e ▸ h2) id, Or.inr⟩
  unfold addCircle
  split
  · exact key _ _ _ _ (key _ _ _ _ Iff.rfl hx) hy
  · rfl

/-- Two bounds dictionaries that `fit_params` cannot tell apart. -/
def Agree (m : Mode) (nom : Dict PyStr ℝ) (b b' : Dict PyStr (ℝ × ℝ)) : Prop :=
  ∀ k, (k ∈ allKeys ∨ k ∈ Dict.keys nom) → (m = .dynamic → isEps k = false) → b.get? k = b'.get? k

theorem keys_iff_of_get {ν : Type} (b b' : Dict PyStr ν) (k : PyStr) (h : b.get? k = b'.get? k) :
    k ∈ Dict.keys b ↔ k ∈ Dict.keys b' := by
  rw [Dict.mem_keys, Dict.mem_keys, h]

theorem fit_agree {δ : Type} (sortKeys : List PyStr → List PyStr) (hs : ∀ l, (sortKeys l).Perm l) (opt : Opt δ)
    (i : Input δ) (nom : Dict PyStr ℝ) (b b' : Dict PyStr (ℝ × ℝ)) (h : Agree i.mode nom b b') :
    (fitParams sortKeys opt i nom b).1 = (fitParams sortKeys opt i nom b').1 ∧
      (fitParams sortKeys opt i nom b).2.1 = (fitParams sortKeys opt i nom b').2.1 ∧
      Agree i.mode (fitParams sortKeys opt i nom b).2.1 (fitParams sortKeys opt i nom b).2.2
        (fitParams sortKeys opt i nom b').2.2 := by
  have hbase : ∀ k ∈ allKeys, b.get? k = b'.get? k := fun k hk => h k (Or.inl hk) fun _ => base_not_eps k hk
  have hguard : ((∀ k ∈ allKeys, k ∈ Dict.keys nom) ∧ (∀ k ∈ allKeys, k ∈ Dict.keys b) ∧ ∀ k ∈ i.keepFixed, k ∈ allKeys) ↔
      ((∀ k ∈ allKeys, k ∈ Dict.keys nom) ∧ (∀ k ∈ allKeys, k ∈ Dict.keys b') ∧ ∀ k ∈ i.keepFixed, k ∈ allKeys) := by
    refine and_congr Iff.rfl (and_congr ?_ Iff.rfl)
    exact forall₂_congr fun k hk => keys_iff_of_get b b' k (hbase k hk)
  unfold fitParams
  by_cases hg : ¬ ((∀ k ∈ allKeys, k ∈ Dict.keys nom) ∧ (∀ k ∈ allKeys, k ∈ Dict.keys b) ∧ ∀ k ∈ i.keepFixed, k ∈ allKeys)
  · rw [if_pos hg, if_pos (fun h' => hg (hguard.2 h'))]
    exact ⟨rfl, rfl, h⟩
  have hg' : ¬ ¬ ((∀ k ∈ allKeys, k ∈ Dict.keys nom) ∧ (∀ k ∈ allKeys, k ∈ Dict.keys b') ∧ ∀ k ∈ i.keepFixed, k ∈ allKeys) :=
    fun h' => hg (fun h'' => h' (hguard.1 h''))
  rw [if_neg hg, if_neg hg']
  rw [not_not] at hg
  by_cases h1 : i.flags &&& 3 > 0
  · rw [if_pos h1, if_pos h1]; exact ⟨rfl, rfl, h⟩
  rw [if_neg h1, if_neg h1]
  by_cases h2 : (!i.anyRehome) = true
  · rw [if_pos h2, if_pos h2]; exact ⟨rfl, rfl, h⟩
  rw [if_neg h2, if_neg h2]
  dsimp only
  have hA : Agree i.mode (addEps i nom) (addEpsBounds i b) (addEpsBounds i b') := by
    intro k hk hd
    rw [get_addEpsBounds, get_addEpsBounds]
    split_ifs with hc
    · rfl
    · refine h k (hk.imp id fun hk => ?_) hd
      exact ((mem_addEps i nom k).1 hk).resolve_left hc
  by_cases h3 : i.mode = .dynamic ∧ ∃ k ∈ i.seqs.flatMap epsKeys, k ∉ Dict.keys (addEps i nom)
  · rw [if_pos h3, if_pos h3]; exact ⟨rfl, rfl, hA⟩
  rw [if_neg h3, if_neg h3]
  have hkeys : ∀ k ∈ allKeys, k ∈ Dict.keys (addEps i nom) := fun k hk => (mem_addEps i nom k).2 (Or.inr (hg.1 k hk))
  set nom1 := addEps i nom with hnom1
  set fixed := fixedKeys i nom1 with hfixed
  set free := sortKeys ((Dict.keys nom1).filter fun k => k ∉ fixed) with hfree
  have hfreemem : ∀ k ∈ free, k ∈ Dict.keys nom1 ∧ k ∉ fixed := by
    intro k hk
    have := List.mem_filter.1 ((hs _).subset hk)
    exact ⟨this.1, by simpa using this.2⟩
  have hlook : lookups (addEpsBounds i b) free = lookups (addEpsBounds i b') free := by
    refine lookups_congr _ _ _ fun k hk => ?_
    refine hA k (Or.inr (hfreemem k hk).1) fun hd => ?_
    have hnf := (hfreemem k hk).2
    rw [hfixed] at hnf
    unfold fixedKeys at hnf
    rw [hd] at hnf
    by_contra hcon
    exact hnf (List.mem_append_right _ (List.mem_filter.2 ⟨(hfreemem k hk).1, by simpa using hcon⟩))
  have hA2 : Agree i.mode (addCircle i fixed nom1) (addEpsBounds i b) (addEpsBounds i b') := by
    intro k hk hd
    exact hA k (hk.imp id (mem_addCircle i fixed nom1 k hkeys).1) hd
  rw [hlook]
  cases lookups (addCircle i fixed nom1) free with
  | error e => exact ⟨rfl, rfl, hA2⟩
  | ok x0 =>
    cases lookups (addEpsBounds i b') free with
    | error e => exact ⟨rfl, rfl, hA2⟩
    | ok bb =>
      dsimp only
      cases lookups (addCircle i fixed nom1) fixed with
      | error e => exact ⟨rfl, rfl, hA2⟩
      | ok fx => exact ⟨rfl, rfl, hA2⟩

/-- The bounds dictionary stays intact. -/
theorem fit_intact {δ : Type} (sortKeys : List PyStr → List PyStr) (opt : Opt δ) (i : Input δ) (nom : Dict PyStr ℝ)
    (b : Dict PyStr (ℝ × ℝ)) (h : Intact b) : Intact (fitParams sortKeys opt i nom b).2.2 := by
  have h1 : Intact (addEpsBounds i b) := by
    intro k hk
    rw [get_addEpsBounds, if_neg, h k hk]
    rintro ⟨_, hm⟩
    obtain ⟨s, _, hks⟩ := List.mem_flatMap.1 hm
    exact eps_not_base s k hks hk
  unfold fitParams
  dsimp only
  split_ifs
  all_goals first | exact h | exact h1 | skip
  split
  · split <;> exact h1
  · exact h1
  · exact h1

theorem after_intact {δ : Type} (sortKeys : List PyStr → List PyStr) (opt : Opt δ)
    (h : List (Input δ × Option (Dict PyStr ℝ) × Option (Dict PyStr (ℝ × ℝ)))) :
    Intact (after sortKeys opt h).bounds := by
  unfold after
  have : ∀ st : State, Intact st.bounds →
      Intact (h.foldl (fun st c => (call sortKeys opt st c.1 c.2.1 c.2.2).2.1) st).bounds := by
    induction h with
    | nil => intro st h; exact h
    | cons c l ih =>
      intro st hst
      rw [List.foldl_cons]
      refine ih _ ?_
      unfold call
      dsimp only
      cases c.2.2 with
      | none => exact fit_intact sortKeys opt _ _ _ hst
      | some b => exact hst
  exact this _ fun k _ => rfl

end Ftr

/-- A pass over the windows of a positioner, starting from nominal values with the standard
parameters (and, in dynamic mode, any EPSILON parameters), gives the same results after any history
of calls in the same process, whatever nominal values and bounds those calls were given. -/
theorem C43_pass {δ : Type} (sortKeys : List PyStr → List PyStr) (hs : ∀ l, (sortKeys l).Perm l) (opt : Opt δ)
    (h : List (Input δ × Option (Dict PyStr ℝ) × Option (Dict PyStr (ℝ × ℝ))))
    (m : Mode) (windows : List (Input δ)) (hw : ∀ i ∈ windows, i.mode = m) (nom : Dict PyStr ℝ)
    (hn : ∀ k ∈ Dict.keys nom, k ∈ allKeys ∨ (m = .dynamic ∧ pyIn "EPSILON".toList k = true)) :
    pass sortKeys opt (after sortKeys opt h) nom windows = pass sortKeys opt State.init nom windows := by
  have key : ∀ (windows : List (Input δ)), (∀ i ∈ windows, i.mode = m) → ∀ (st st' : State) (nom : Dict PyStr ℝ),
      Ftr.Agree m nom st.bounds st'.bounds → pass sortKeys opt st nom windows = pass sortKeys opt st' nom windows := by
    intro windows
    induction windows with
    | nil => intros; rfl
    | cons i l ih =>
      intro hw st st' nom hag
      have hm : i.mode = m := hw i (by simp)
      obtain ⟨e1, e2, e3⟩ := Ftr.fit_agree sortKeys hs opt i nom st.bounds st'.bounds (hm ▸ hag)
      simp only [pass, call, Option.getD_some, Option.getD_none, Option.isSome_some, Option.isSome_none,
        Bool.false_eq_true, if_true, if_false]
      rw [e1, e2]
      congr 1
      refine ih (fun j hj => hw j (by simp [hj])) _ _ _ ?_
      rw [hm, e2] at e3
      exact e3
  refine key windows hw _ _ nom ?_
  intro k hk hd
  rcases hk with hk | hk
  · exact Ftr.after_intact sortKeys opt h k hk
  · rcases hn k hk with h' | ⟨h1, h2⟩
    · exact Ftr.after_intact sortKeys opt h k h'
    · have := hd h1
      unfold isEps at this
      rw [h2] at this; cases this

namespace Ftr

theorem lookups_ok {ν : Type} (d : Dict PyStr ν) (l : List PyStr) (h : ∀ k ∈ l, k ∈ Dict.keys d) :
    ∃ vs, lookups d l = .ok vs ∧ vs.length = l.length := by
  induction l with
  | nil => exact ⟨[], rfl, rfl⟩
  | cons a l ih =>
    obtain ⟨v, hv⟩ := (Dict.mem_keys d a).1 (h a (by simp))
    obtain ⟨vs, hvs, hl⟩ := ih fun k hk => h k (by simp [hk])
    refine ⟨v :: vs, ?_, by simp [hl]⟩
    unfold lookups
    rw [hv, hvs]

/-- When nothing goes wrong the static fit reports every nominal parameter and the EPSILON parameters
of its sequences. -/
theorem fit_ok {δ : Type} (sortKeys : List PyStr → List PyStr) (hs : ∀ l, (sortKeys l).Perm l) (opt : Opt δ)
    (hopt : ∀ m d ks x b p, (opt m d ks x b p).length = ks.length) (i : Input δ) (hm : i.mode = .static)
    (hf : i.flags &&& 3 = 0) (hr : i.anyRehome = true) (hk : i.keepFixed = []) (nom : Dict PyStr ℝ)
    (b : Dict PyStr (ℝ × ℝ)) (h1 : ∀ k ∈ allKeys, k ∈ Dict.keys nom)
    (h2 : ∀ k ∈ Dict.keys nom, k ∈ Dict.keys b) :
    ∃ best, (fitParams sortKeys opt i nom b).1 = .ok (.fitted best i.flags) ∧
      (∀ k, k ∈ Dict.keys best ↔ k ∈ i.seqs.flatMap epsKeys ∨ k ∈ Dict.keys nom) ∧
      (fitParams sortKeys opt i nom b).2.1 = addCircle i dynamicKeys (addEps i nom) ∧
      (fitParams sortKeys opt i nom b).2.2 = addEpsBounds i b := by
  unfold fitParams
  have hg : ¬ ¬ ((∀ k ∈ allKeys, k ∈ Dict.keys nom) ∧ (∀ k ∈ allKeys, k ∈ Dict.keys b) ∧ ∀ k ∈ i.keepFixed, k ∈ allKeys) := by
    rw [not_not, hk]
    exact ⟨h1, fun k hk => h2 k (h1 k hk), by simp⟩
  rw [if_neg hg, if_neg (by rw [hf]; simp), if_neg (by rw [hr]; simp)]
  dsimp only
  rw [if_neg (by rw [hm]; simp)]
  have hfx : fixedKeys i (addEps i nom) = dynamicKeys := by
    unfold fixedKeys; rw [hm, hk]; rfl
  rw [hfx]
  have hkeys : ∀ k ∈ allKeys, k ∈ Dict.keys (addEps i nom) := fun k hk => (mem_addEps i nom k).2 (Or.inr (h1 k hk))
  set free := sortKeys ((Dict.keys (addEps i nom)).filter fun k => k ∉ dynamicKeys) with hfree
  have hfreemem : ∀ k, k ∈ free ↔ k ∈ Dict.keys (addEps i nom) ∧ k ∉ dynamicKeys := by
    intro k
    rw [hfree, (hs _).mem_iff, List.mem_filter]
    simp
  obtain ⟨x0, e1, -⟩ := lookups_ok (addCircle i dynamicKeys (addEps i nom)) free
    fun k hk => (mem_addCircle i _ _ k hkeys).2 ((hfreemem k).1 hk).1
  obtain ⟨bb, e2, -⟩ := lookups_ok (addEpsBounds i b) free (by
    intro k hk
    rw [Dict.mem_keys, get_addEpsBounds]
    split_ifs with hc
    · exact ⟨_, rfl⟩
    · rw [← Dict.mem_keys]
      exact h2 k (((mem_addEps i nom k).1 ((hfreemem k).1 hk).1).resolve_left hc))
  obtain ⟨fx, e3, hl3⟩ := lookups_ok (addCircle i dynamicKeys (addEps i nom)) dynamicKeys
    fun k hk => (mem_addCircle i _ _ k hkeys).2 (hkeys k (List.mem_append_right _ hk))
  rw [e1, e2]
  dsimp only
  rw [e3]
  dsimp only
  refine ⟨_, rfl, ?_, rfl, rfl⟩
  intro k
  have hz1 : (free.zip (opt i.mode i.data free x0 bb (addEps i nom))).map Prod.fst = free :=
    List.map_fst_zip (by rw [hopt])
  have hz2 : (dynamicKeys.zip fx).map Prod.fst = dynamicKeys := List.map_fst_zip (by rw [hl3])
  rw [Dict.mem_keys_set, mem_keys_update, hz2]
  have hz1' : k ∈ Dict.keys (free.zip (opt i.mode i.data free x0 bb (addEps i nom))) ↔ k ∈ free := by
    unfold Dict.keys; rw [hz1]
  rw [hz1', hfreemem, mem_addEps]
  constructor
  · rintro (h | h | h)
    · right; rw [h]; exact h1 _ (by decide)
    · right; exact h1 _ (List.mem_append_right _ h)
    · exact h.1.imp (fun h => h.2) id
  · intro h
    by_cases hd : k ∈ dynamicKeys
    · exact Or.inr (Or.inl hd)
    · exact Or.inr (Or.inr ⟨h.imp (fun h => ⟨hm, h⟩) id, hd⟩)

theorem keys_defaultValues : Dict.keys defaultValues = allKeys := rfl

theorem keys_defaultBounds : Dict.keys defaultBounds = allKeys := rfl

end Ftr

/-- Finding: a call without nominal values works on the module's default dictionary itself.  After
a static fit of data with a sequence `s` that was not rehomed, every later static fit of other data
without nominal values reports two parameters for that sequence, which it does not on its own. -/
theorem C43_default_leak {δ : Type} (sortKeys : List PyStr → List PyStr) (hs : ∀ l, (sortKeys l).Perm l) (opt : Opt δ)
    (hopt : ∀ m d ks x b p, (opt m d ks x b p).length = ks.length) (i j : Input δ) (s : ℕ) (his : s ∈ i.seqs)
    (hi : i.mode = .static ∧ i.flags &&& 3 = 0 ∧ i.anyRehome = true ∧ i.keepFixed = [])
    (hj : j.mode = .static ∧ j.flags &&& 3 = 0 ∧ j.anyRehome = true ∧ j.keepFixed = [])
    (hinj : ∀ s' ∈ j.seqs, ∀ k ∈ epsKeys s, k ∉ epsKeys s') :
    ∃ b1 b2, (call sortKeys opt (after sortKeys opt [(i, none, none)]) j none none).1 = .ok (.fitted b1 j.flags) ∧
      (call sortKeys opt State.init j none none).1 = .ok (.fitted b2 j.flags) ∧
      ∀ k ∈ epsKeys s, k ∈ Dict.keys b1 ∧ k ∉ Dict.keys b2 := by
  obtain ⟨a1, a2, a3, a4⟩ := hi
  obtain ⟨c1, c2, c3, c4⟩ := hj
  obtain ⟨b0, e0, k0, n0, m0⟩ := Ftr.fit_ok sortKeys hs opt hopt i a1 a2 a3 a4 defaultValues defaultBounds
    (fun k hk => hk) (fun k hk => hk)
  obtain ⟨b2, e2, k2, -, -⟩ := Ftr.fit_ok sortKeys hs opt hopt j c1 c2 c3 c4 defaultValues defaultBounds
    (fun k hk => hk) (fun k hk => hk)
  have hst : after sortKeys opt [(i, none, none)] =
      ⟨addCircle i dynamicKeys (addEps i defaultValues), addEpsBounds i defaultBounds⟩ := by
    unfold after
    simp only [List.foldl_cons, List.foldl_nil, call, State.init, Option.getD_none, Option.isSome_none,
      Bool.false_eq_true, if_false]
    rw [n0, m0]
  have hkeys : ∀ k ∈ allKeys, k ∈ Dict.keys (addEps i defaultValues) :=
    fun k hk => (Ftr.mem_addEps i _ k).2 (Or.inr hk)
  obtain ⟨b1, e1, k1, -, -⟩ := Ftr.fit_ok sortKeys hs opt hopt j c1 c2 c3 c4
    (addCircle i dynamicKeys (addEps i defaultValues)) (addEpsBounds i defaultBounds)
    (fun k hk => (Ftr.mem_addCircle i _ _ k hkeys).2 (hkeys k hk))
    (fun k hk => by
      have h := (Ftr.mem_addEps i _ k).1 ((Ftr.mem_addCircle i _ _ k hkeys).1 hk)
      rw [Dict.mem_keys, Ftr.get_addEpsBounds]
      split_ifs with hc
      · exact ⟨_, rfl⟩
      · rw [← Dict.mem_keys]; exact h.resolve_left hc)
  refine ⟨b1, b2, ?_, ?_, ?_⟩
  · rw [hst]; exact e1
  · exact e2
  · intro k hk
    constructor
    · rw [k1]
      right
      rw [Ftr.mem_addCircle i _ _ k hkeys, Ftr.mem_addEps]
      exact Or.inl ⟨a1, List.mem_flatMap.2 ⟨s, his, hk⟩⟩
    · rw [k2]
      rintro (h | h)
      · obtain ⟨s', hs', hk'⟩ := List.mem_flatMap.1 h
        exact hinj s' hs' k hk hk'
      · exact Ftr.eps_not_base s k hk h

/-- Finding: inside one pass the windows share the dictionary of nominal values: the fit of a window
also reports the EPSILON parameters of the windows before it. -/
theorem C43_windows_share {δ : Type} (sortKeys : List PyStr → List PyStr) (hs : ∀ l, (sortKeys l).Perm l) (opt : Opt δ)
    (hopt : ∀ m d ks x b p, (opt m d ks x b p).length = ks.length) (i j : Input δ) (s : ℕ) (his : s ∈ i.seqs)
    (hi : i.mode = .static ∧ i.flags &&& 3 = 0 ∧ i.anyRehome = true ∧ i.keepFixed = [])
    (hj : j.mode = .static ∧ j.flags &&& 3 = 0 ∧ j.anyRehome = true ∧ j.keepFixed = []) :
    ∃ r b, pass sortKeys opt State.init defaultValues [i, j] = [r, .ok (.fitted b j.flags)] ∧
      ∀ k ∈ epsKeys s, k ∈ Dict.keys b := by
  obtain ⟨a1, a2, a3, a4⟩ := hi
  obtain ⟨c1, c2, c3, c4⟩ := hj
  obtain ⟨b0, e0, k0, n0, m0⟩ := Ftr.fit_ok sortKeys hs opt hopt i a1 a2 a3 a4 defaultValues defaultBounds
    (fun k hk => hk) (fun k hk => hk)
  have hkeys : ∀ k ∈ allKeys, k ∈ Dict.keys (addEps i defaultValues) :=
    fun k hk => (Ftr.mem_addEps i _ k).2 (Or.inr hk)
  obtain ⟨b1, e1, k1, -, -⟩ := Ftr.fit_ok sortKeys hs opt hopt j c1 c2 c3 c4
    (addCircle i dynamicKeys (addEps i defaultValues)) (addEpsBounds i defaultBounds)
    (fun k hk => (Ftr.mem_addCircle i _ _ k hkeys).2 (hkeys k hk))
    (fun k hk => by
      have h := (Ftr.mem_addEps i _ k).1 ((Ftr.mem_addCircle i _ _ k hkeys).1 hk)
      rw [Dict.mem_keys, Ftr.get_addEpsBounds]
      split_ifs with hc
      · exact ⟨_, rfl⟩
      · rw [← Dict.mem_keys]; exact h.resolve_left hc)
  refine ⟨(fitParams sortKeys opt i defaultValues defaultBounds).1, b1, ?_, ?_⟩
  · simp only [pass, call, State.init, Option.getD_some, Option.getD_none, Option.isSome_some, Option.isSome_none,
      Bool.false_eq_true, if_false]
    rw [n0, m0, e1]
  · intro k hk
    rw [k1]
    right
    rw [Ftr.mem_addCircle i _ _ k hkeys, Ftr.mem_addEps]
    exact Or.inl ⟨a1, List.mem_flatMap.2 ⟨s, his, hk⟩⟩

open Verif.Model.FitHandler in
/-- Finding: the column names registered by an earlier positioner in the same process change the
outcome: a positioner whose only sequence without rehome is number 10 is processed on its own, but
fails with KeyError after a positioner that had a sequence number 1. -/
theorem C43_known_leak (rows : List OutRow) (known : List PyStr) :
    findEps ⟨rows, rename (suffix .static) ["EPSILON_P_10".toList] ["EPSILON_P_10".toList], known⟩ = .ok () ∧
      findEps ⟨rows, rename (suffix .static) ["EPSILON_P_1".toList, "EPSILON_P_10".toList] ["EPSILON_P_10".toList], known⟩ =
        .error .keyError := by
  constructor
  · unfold findEps
    rw [if_pos]
    show ((rename (suffix .static) ["EPSILON_P_10".toList] ["EPSILON_P_10".toList]).all fun k => decide
      ((("".toList).intercalate (split "_STATIC".toList k)) ++ "_STATIC".toList ∈
        rename (suffix .static) ["EPSILON_P_10".toList] ["EPSILON_P_10".toList])) = true
    decide
  · unfold findEps
    rw [if_neg]
    show ¬ ((rename (suffix .static) ["EPSILON_P_1".toList, "EPSILON_P_10".toList] ["EPSILON_P_10".toList]).all
      fun k => decide ((("".toList).intercalate (split "_STATIC".toList k)) ++ "_STATIC".toList ∈
        rename (suffix .static) ["EPSILON_P_1".toList, "EPSILON_P_10".toList] ["EPSILON_P_10".toList])) = true
    decide

/-- The module's own defaults meet the hypothesis of `C43_pass`, and the two findings apply e.g. to
sequences 3 and 4. -/
example : (∀ k ∈ Dict.keys defaultValues, k ∈ allKeys) ∧ ∀ k ∈ epsKeys 3, k ∉ epsKeys 4 :=
  ⟨fun _ h => h, by decide⟩

end Verif.Props
