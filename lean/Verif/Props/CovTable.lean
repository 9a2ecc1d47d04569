import Verif.Model.CovTable
import Verif.Lemmas.Str
import Mathlib.LinearAlgebra.Matrix.NonsingularInverse
import Mathlib.Tactic

/-!
# C100: covariances of the fitted parameters
-/

namespace Verif.Lemmas.CovTable
open Verif.Py Verif.Model.CovTable
open Verif.Model.Fitter hiding Mode

theorem dot_split {a c b d : PyStr} (ha : '.' ∉ a) (hc : '.' ∉ c) (h : a ++ '.' :: b = c ++ '.' :: d) : a = c ∧ b = d := by
  induction a generalizing c with
  | nil =>
    cases c with
    | nil => simpa using h
    | cons x c =>
      rw [List.nil_append, List.cons_append] at h
      have := (List.cons.inj h).1
      exact absurd (by rw [← this]; simp) hc
  | cons y a ih =>
    cases c with
    | nil =>
      rw [List.nil_append, List.cons_append] at h
      have := (List.cons.inj h).1
      exact absurd (by rw [this]; simp) ha
    | cons x c =>
      rw [List.cons_append, List.cons_append] at h
      obtain ⟨h1, h2⟩ := List.cons.inj h
      obtain ⟨h3, h4⟩ := ih (fun hc => ha (by simp [hc])) (fun h => hc (by simp [h])) h2
      exact ⟨by rw [h1, h3], h4⟩

theorem ckey_inj {a b c d : PyStr} (ha : '.' ∉ a) (hc : '.' ∉ c) (h : ckey a b = ckey c d) : a = c ∧ b = d := by
  unfold ckey at h
  exact dot_split ha hc (List.append_cancel_left h)

/-! ### dictionaries -/

theorem update_notMem {ν : Type} (l : List (PyStr × ν)) (d : Dict PyStr ν) (k : PyStr) (h : k ∉ l.map Prod.fst) :
    (update d l).get? k = d.get? k := by
  induction l generalizing d with
  | nil => rfl
  | cons p l ih =>
    simp only [List.map_cons, List.mem_cons, not_or] at h
    show (update (d.set p.1 p.2) l).get? k = _
    rw [ih _ h.2, Dict.get?_set_ne _ _ (Ne.symm h.1)]

theorem update_mem {ν : Type} (l : List (PyStr × ν)) (d : Dict PyStr ν) (hn : (l.map Prod.fst).Nodup) (p : PyStr × ν)
    (h : p ∈ l) : (update d l).get? p.1 = some p.2 := by
  induction l generalizing d with
  | nil => cases h
  | cons q l ih =>
    rw [List.map_cons, List.nodup_cons] at hn
    rcases List.mem_cons.1 h with h | h
    · subst h
      show (update (d.set p.1 p.2) l).get? p.1 = _
      rw [update_notMem _ _ _ hn.1, Dict.get?_set_self]
    · exact ih _ hn.2 h

theorem keys_set {ν : Type} (d : Dict PyStr ν) (k : PyStr) (v : ν) (h : k ∈ Dict.keys d) : Dict.keys (d.set k v) = Dict.keys d := by
  induction d with
  | nil => cases h
  | cons p t ih =>
    obtain ⟨a, b⟩ := p
    by_cases hk : a = k
    · subst hk; simp [Dict.set, Dict.keys]
    · have : k ∈ Dict.keys t := by
        rcases List.mem_cons.1 h with h | h
        · exact absurd h.symm hk
        · exact h
      have := ih this
      unfold Dict.keys at this ⊢
      simp [Dict.set, hk, this]

theorem keys_set_new {ν : Type} (d : Dict PyStr ν) (k : PyStr) (v : ν) (h : k ∉ Dict.keys d) :
    d.set k v = d ++ [(k, v)] := by
  induction d with
  | nil => rfl
  | cons p t ih =>
    obtain ⟨a, b⟩ := p
    have h1 : a ≠ k := fun hc => h (by simp [Dict.keys, hc])
    have h2 : k ∉ Dict.keys t := fun hc => h (List.mem_cons_of_mem _ hc)
    simp [Dict.set, h1, ih h2]

theorem get?_mem {ν : Type} {d : Dict PyStr ν} {k : PyStr} {v : ν} (h : d.get? k = some v) : (k, v) ∈ d := by
  induction d with
  | nil => cases h
  | cons p t ih =>
    obtain ⟨a, b⟩ := p
    unfold Dict.get? at h
    split_ifs at h with hk
    · subst hk
      rw [Option.some.inj h]; simp
    · exact List.mem_cons_of_mem _ (ih h)

theorem get?_of_mem {ν : Type} {d : Dict PyStr ν} (hn : (Dict.keys d).Nodup) {k : PyStr} {v : ν} (h : (k, v) ∈ d) :
    d.get? k = some v := by
  induction d with
  | nil => cases h
  | cons p t ih =>
    obtain ⟨a, b⟩ := p
    have hn' : a ∉ Dict.keys t ∧ (Dict.keys t).Nodup := List.nodup_cons.1 hn
    unfold Dict.get?
    rcases List.mem_cons.1 h with h | h
    · cases h; simp
    · rw [if_neg, ih hn'.2 h]
      intro hc
      subst hc
      exact hn'.1 (List.mem_map.2 ⟨_, h, rfl⟩)

theorem get?_none {ν : Type} {d : Dict PyStr ν} {k : PyStr} : d.get? k = none ↔ k ∉ Dict.keys d := by
  rw [Dict.mem_keys]
  cases d.get? k <;> simp

/-! ### the dictionary of covariances -/

/-- `a` is `b` or before `b` in the list. -/
def Le (l : List PyStr) (a b : PyStr) : Prop := ∃ m n : ℕ, m ≤ n ∧ l[m]? = some a ∧ l[n]? = some b

theorem Le.cons {l : List PyStr} {a b : PyStr} (h : Le l a b) (k : PyStr) : Le (k :: l) a b := by
  obtain ⟨m, n, h1, h2, h3⟩ := h
  exact ⟨m + 1, n + 1, by omega, by simpa using h2, by simpa using h3⟩

theorem Le.head {l : List PyStr} {k b : PyStr} (h : b ∈ k :: l) : Le (k :: l) k b := by
  obtain ⟨n, hn⟩ := List.mem_iff_getElem?.1 h
  exact ⟨0, n, by omega, rfl, hn⟩

theorem Le.cases {l : List PyStr} {k a b : PyStr} (h : Le (k :: l) a b) : (a = k ∧ b ∈ k :: l) ∨ Le l a b := by
  obtain ⟨m, n, h1, h2, h3⟩ := h
  cases m with
  | zero => exact .inl ⟨(Option.some.inj h2).symm, List.mem_iff_getElem?.2 ⟨n, h3⟩⟩
  | succ m =>
    cases n with
    | zero => omega
    | succ n => exact .inr ⟨m, n, by omega, by simpa using h2, by simpa using h3⟩

theorem Le.mem {l : List PyStr} {a b : PyStr} (h : Le l a b) : a ∈ l ∧ b ∈ l := by
  obtain ⟨m, n, h1, h2, h3⟩ := h
  exact ⟨List.mem_iff_getElem?.2 ⟨m, h2⟩, List.mem_iff_getElem?.2 ⟨n, h3⟩⟩

theorem Le.total {l : List PyStr} {a b : PyStr} (ha : a ∈ l) (hb : b ∈ l) : Le l a b ∨ Le l b a := by
  obtain ⟨m, hm⟩ := List.mem_iff_getElem?.1 ha
  obtain ⟨n, hn⟩ := List.mem_iff_getElem?.1 hb
  rcases le_total m n with h | h
  · exact .inl ⟨m, n, h, hm, hn⟩
  · exact .inr ⟨n, m, h, hn, hm⟩

theorem Le.antisymm {l : List PyStr} (hl : l.Nodup) {a b : PyStr} (h : Le l a b) (h' : Le l b a) : a = b := by
  obtain ⟨m, n, h1, h2, h3⟩ := h
  obtain ⟨m', n', h1', h2', h3'⟩ := h'
  have e1 : m = n' := by
    obtain ⟨hm, rfl⟩ := List.getElem?_eq_some_iff.1 h2
    obtain ⟨hn, e⟩ := List.getElem?_eq_some_iff.1 h3'
    exact ((List.Nodup.getElem_inj_iff hl).1 e).symm
  have e2 : n = m' := by
    obtain ⟨hm, rfl⟩ := List.getElem?_eq_some_iff.1 h3
    obtain ⟨hn, e⟩ := List.getElem?_eq_some_iff.1 h2'
    exact ((List.Nodup.getElem_inj_iff hl).1 e).symm
  have : m = n := by omega
  subst this
  rw [h2] at h3
  exact Option.some.inj h3

theorem mem_covColumns {l : List PyStr} {x : PyStr} : x ∈ covColumns l ↔ ∃ a b, Le l a b ∧ x = ckey a b := by
  induction l with
  | nil => simp [covColumns, Le]
  | cons k t ih =>
    unfold covColumns
    rw [List.mem_append, ih, List.mem_map]
    constructor
    · rintro (⟨b, hb, rfl⟩ | ⟨a, b, h, rfl⟩)
      · exact ⟨k, b, Le.head hb, rfl⟩
      · exact ⟨a, b, h.cons k, rfl⟩
    · rintro ⟨a, b, h, rfl⟩
      rcases h.cases with ⟨rfl, hb⟩ | h
      · exact .inl ⟨b, hb, rfl⟩
      · exact .inr ⟨a, b, h, rfl⟩

theorem nodup_covColumns {l : List PyStr} (hn : l.Nodup) (hd : ∀ k ∈ l, '.' ∉ k) : (covColumns l).Nodup := by
  induction l with
  | nil => exact List.nodup_nil
  | cons k t ih =>
    unfold covColumns
    rw [List.nodup_cons] at hn
    refine List.Nodup.append ?_ (ih hn.2 fun k hk => hd k (by simp [hk])) ?_
    · refine List.Nodup.map_on ?_ (List.nodup_cons.2 hn)
      intro x _ y _ h
      exact (ckey_inj (hd k (by simp)) (hd k (by simp)) h).2
    · intro x hx hx'
      obtain ⟨b, _, rfl⟩ := List.mem_map.1 hx
      obtain ⟨a, b', h, e⟩ := mem_covColumns.1 hx'
      have := (ckey_inj (hd k (by simp)) (hd a (by simp [h.mem.1])) e).1
      exact hn.1 (this ▸ h.mem.1)

theorem upper_keys (c : ℕ → ℕ → ℝ) (i : ℕ) (l : List PyStr) : (upper c i l).map Prod.fst = covColumns l := by
  induction l generalizing i with
  | nil => rfl
  | cons k t ih =>
    unfold upper covColumns
    rw [List.map_append, ih, List.map_map]
    congr 1
    show List.map (fun p : PyStr × ℕ => ckey k p.1) _ = _
    have : (List.map (ckey k) (List.map Prod.fst ((k :: t).zipIdx i))) = List.map (ckey k) (k :: t) := by
      rw [List.zipIdx_map_fst]
    rw [← this, List.map_map]
    rfl

theorem mem_upper (c : ℕ → ℕ → ℝ) (i : ℕ) (l : List PyStr) (m n : ℕ) (hmn : m ≤ n) (a b : PyStr) (ha : l[m]? = some a)
    (hb : l[n]? = some b) : (ckey a b, c (i + m) (i + n)) ∈ upper c i l := by
  induction l generalizing i m n with
  | nil => simp at ha
  | cons k t ih =>
    unfold upper
    rw [List.mem_append]
    cases m with
    | zero =>
      left
      rw [List.mem_map]
      have : k = a := by simpa using ha
      subst this
      exact ⟨(b, i + n), List.mk_add_mem_zipIdx_iff_getElem?.2 hb, rfl⟩
    | succ m =>
      cases n with
      | zero => omega
      | succ n =>
        right
        have := ih (i + 1) m n (by omega) (by simpa using ha) (by simpa using hb)
        rwa [show i + 1 + m = i + (m + 1) by ring, show i + 1 + n = i + (n + 1) by ring] at this

variable {free fixed : List PyStr}

theorem covDict_free (hn : free.Nodup) (hd : ∀ k ∈ free, '.' ∉ k) (hd' : ∀ k ∈ fixed, '.' ∉ k) (hdis : ∀ k ∈ free, k ∉ fixed)
    (c : ℕ → ℕ → ℝ) {m n : ℕ} (hmn : m ≤ n) {a b : PyStr} (ha : free[m]? = some a) (hb : free[n]? = some b) :
    (covDict free fixed c).get? (ckey a b) = some (c m n) := by
  have ham : a ∈ free := List.mem_iff_getElem?.2 ⟨m, ha⟩
  unfold covDict
  rw [update_notMem]
  · have := update_mem (upper c 0 free) [] (by rw [upper_keys]; exact nodup_covColumns hn hd) _ (mem_upper c 0 free m n hmn a b ha hb)
    simpa using this
  · intro hc
    rw [List.map_map, List.mem_map] at hc
    obtain ⟨k, hk, e⟩ := hc
    have := (ckey_inj (hd' k hk) (hd a ham) e).1
    exact hdis a ham (this ▸ hk)

theorem covDict_none (hd : ∀ k ∈ free, '.' ∉ k) (hd' : ∀ k ∈ fixed, '.' ∉ k) (c : ℕ → ℕ → ℝ) {a b : PyStr} (ha : '.' ∉ a)
    (h : ¬ Le free a b) (h' : ¬ (a = b ∧ a ∈ fixed)) : (covDict free fixed c).get? (ckey a b) = none := by
  unfold covDict
  rw [update_notMem, update_notMem]
  · rfl
  · rw [upper_keys, mem_covColumns]
    rintro ⟨a', b', hl, e⟩
    obtain ⟨rfl, rfl⟩ := ckey_inj ha (hd a' hl.mem.1) e
    exact h hl
  · intro hc
    rw [List.map_map, List.mem_map] at hc
    obtain ⟨k, hk, e⟩ := hc
    obtain ⟨e1, e2⟩ := ckey_inj (hd' k hk) ha e
    exact h' ⟨e1 ▸ e2, e1 ▸ hk⟩

theorem covDict_fixed (hn : fixed.Nodup) (hd' : ∀ k ∈ fixed, '.' ∉ k) (c : ℕ → ℕ → ℝ) {a : PyStr} (ha : a ∈ fixed) :
    (covDict free fixed c).get? (ckey a a) = some 0 := by
  unfold covDict
  refine update_mem (fixed.map fun k => (ckey k k, (0 : ℝ))) _ ?_ (ckey a a, 0) (List.mem_map.2 ⟨a, ha, rfl⟩)
  rw [List.map_map]
  refine List.Nodup.map_on ?_ hn
  intro x hx y hy h
  exact (ckey_inj (hd' x hx) (hd' y hy) h).1

/-- What is found in the dictionary. -/
theorem cval_covDict (hn : free.Nodup) (hn' : fixed.Nodup) (hd : ∀ k ∈ free, '.' ∉ k) (hd' : ∀ k ∈ fixed, '.' ∉ k)
    (hdis : ∀ k ∈ free, k ∉ fixed) (c : ℕ → ℕ → ℝ) (hc : ∀ i j, c i j = c j i) :
    (∀ (m n : ℕ) a b, free[m]? = some a → free[n]? = some b → cval (covDict free fixed c) a b = c m n) ∧
    (∀ a b, '.' ∉ a → '.' ∉ b → a ∉ free ∨ b ∉ free → cval (covDict free fixed c) a b = 0) := by
  constructor
  · intro m n a b ha hb
    unfold cval
    rcases le_total m n with h | h
    · rw [covDict_free hn hd hd' hdis c h ha hb]
    · rcases hcase : (covDict free fixed c).get? (ckey a b) with _ | v
      · rw [covDict_free hn hd hd' hdis c h hb ha]
        exact hc _ _
      · have ham : a ∈ free := List.mem_iff_getElem?.2 ⟨m, ha⟩
        by_cases hle : Le free a b
        · have := Le.antisymm hn hle ⟨n, m, h, hb, ha⟩
          subst this
          rw [covDict_free hn hd hd' hdis c h hb ha] at hcase
          rw [← Option.some.inj hcase]
          exact hc _ _
        · rw [covDict_none hd hd' c (hd a ham) hle fun hx => hdis a ham hx.2] at hcase
          cases hcase
  · intro a b ha hb hor
    have hl : ∀ x y, (x = a ∧ y = b) ∨ (x = b ∧ y = a) → ¬ Le free x y := by
      rintro x y (⟨rfl, rfl⟩ | ⟨rfl, rfl⟩) hle
      · rcases hor with h | h
        · exact h hle.mem.1
        · exact h hle.mem.2
      · rcases hor with h | h
        · exact h hle.mem.2
        · exact h hle.mem.1
    have key : ∀ x y, '.' ∉ x → (x = a ∧ y = b) ∨ (x = b ∧ y = a) →
        (covDict free fixed c).get? (ckey x y) = none ∨ (covDict free fixed c).get? (ckey x y) = some 0 := by
      intro x y hx hxy
      by_cases hf : x = y ∧ x ∈ fixed
      · obtain ⟨rfl, hf⟩ := hf
        exact .inr (covDict_fixed hn' hd' c hf)
      · exact .inl (covDict_none hd hd' c hx (hl x y hxy) hf)
    unfold cval
    rcases key a b ha (.inl ⟨rfl, rfl⟩) with h | h <;> rw [h]
    rcases key b a hb (.inr ⟨rfl, rfl⟩) with h | h <;> rw [h]

/-! ### the columns -/

theorem appendAll_ok (L : List (PyStr × ℝ)) (out : Dict PyStr (List ℝ)) (hn : (L.map Prod.fst).Nodup)
    (hk : ∀ k ∈ L.map Prod.fst, k ∈ Dict.keys out) :
    ∃ out', appendAll out L = .ok out' ∧ Dict.keys out' = Dict.keys out ∧
      (∀ p ∈ L, ∀ l, out.get? p.1 = some l → out'.get? p.1 = some (l ++ [p.2])) ∧
      ∀ k ∉ L.map Prod.fst, out'.get? k = out.get? k := by
  induction L generalizing out with
  | nil => exact ⟨out, rfl, rfl, by simp, by simp⟩
  | cons p L ih =>
    rw [List.map_cons, List.nodup_cons] at hn
    obtain ⟨l0, h0⟩ := (Dict.mem_keys out p.1).1 (hk p.1 (by simp))
    have hkeys := keys_set out p.1 (l0 ++ [p.2]) (hk p.1 (by simp))
    obtain ⟨out', h1, h2, h3, h4⟩ := ih (out.set p.1 (l0 ++ [p.2])) hn.2 fun k hk' => by
      rw [hkeys]; exact hk k (by simp only [List.map_cons, List.mem_cons]; exact .inr hk')
    refine ⟨out', ?_, h2.trans hkeys, ?_, ?_⟩
    · unfold appendAll append
      rw [h0]
      exact h1
    · intro q hq l hl
      rcases List.mem_cons.1 hq with rfl | hq
      · rw [h4 _ hn.1, Dict.get?_set_self, ← h0.symm.trans hl |> Option.some.inj]
      · have hne : p.1 ≠ q.1 := fun hc => hn.1 (hc ▸ List.mem_map.2 ⟨q, hq, rfl⟩)
        exact h3 q hq l (by rw [Dict.get?_set_ne _ _ hne, hl])
    · intro k hk'
      simp only [List.map_cons, List.mem_cons, not_or] at hk'
      rw [h4 k hk'.2, Dict.get?_set_ne _ _ (Ne.symm hk'.1)]

theorem filter_noteps {l : List PyStr} (h : ∀ k ∈ l, isEps k = false) : (l.filter fun b => !isEps b) = l := by
  rw [List.filter_eq_self]
  intro a ha
  simp [h a ha]

theorem filter_eps {l : List PyStr} (h : ∀ k ∈ l, isEps k = true) : (l.filter fun b => !isEps b) = [] := by
  rw [List.filter_eq_nil_iff]
  intro a ha
  simp [h a ha]

theorem appends_eps (out : Dict PyStr (List ℝ)) (f : Fit) (eps : List PyStr) (h : ∀ k ∈ eps, isEps k = true) :
    appends out f eps = eps.map fun k => (k, (f.params.get? k).getD 0) := by
  induction eps with
  | nil => rfl
  | cons k t ih =>
    unfold appends
    rw [if_pos (h k (by simp)), ih fun k hk => h k (by simp [hk])]
    rfl

theorem appends_spec (out : Dict PyStr (List ℝ)) (f : Fit) (B eps : List PyStr) (hB : ∀ k ∈ B, isEps k = false)
    (he : ∀ k ∈ eps, isEps k = true) (hin : ∀ x ∈ covColumns B, x ∈ Dict.keys out) :
    ((appends out f (B ++ eps)).map Prod.fst).Perm (B ++ (covColumns B ++ eps)) ∧
    (∀ k ∈ B ++ eps, (k, (f.params.get? k).getD 0) ∈ appends out f (B ++ eps)) ∧
    (∀ a b, Le B a b → (ckey a b, cval f.cov a b) ∈ appends out f (B ++ eps)) := by
  induction B with
  | nil =>
    refine ⟨?_, ?_, ?_⟩
    · simp only [List.nil_append, covColumns]
      rw [appends_eps out f eps he, List.map_map]
      show (List.map (fun k => k) eps).Perm eps
      simp
    · intro k hk
      rw [List.nil_append] at hk ⊢
      rw [appends_eps out f eps he]
      exact List.mem_map.2 ⟨k, hk, rfl⟩
    · rintro a b ⟨m, n, _, h, _⟩
      simp at h
  | cons k t ih =>
    have hk : isEps k = false := hB k (by simp)
    have ht : ∀ k ∈ t, isEps k = false := fun k hk => hB k (by simp [hk])
    obtain ⟨i1, i2, i3⟩ := ih ht fun x hx => hin x (by unfold covColumns; exact List.mem_append_right _ hx)
    have hfil : ((k :: (t ++ eps)).filter fun b => !isEps b) = k :: t := by
      rw [← List.cons_append, List.filter_append, filter_noteps hB, filter_eps he, List.append_nil]
    have hok : ∀ b ∈ k :: t, okey out k b = ckey k b := by
      intro b hb
      unfold okey
      rw [if_pos (hin _ (mem_covColumns.2 ⟨k, b, Le.head hb, rfl⟩))]
    have hform : appends out f (k :: t ++ eps) = (k, (f.params.get? k).getD 0) ::
        ((k :: t).map (fun b => (ckey k b, cval f.cov k b)) ++ appends out f (t ++ eps)) := by
      rw [List.cons_append]
      conv_lhs => unfold appends
      rw [hk, if_neg (by simp), hfil]
      congr 2
      exact List.map_congr_left fun b hb => by rw [hok b hb]
    rw [hform]
    refine ⟨?_, ?_, ?_⟩
    · rw [List.map_cons, List.map_append, List.map_map]
      simp only [List.cons_append]
      refine List.Perm.cons _ ?_
      have e1 : List.map (Prod.fst ∘ fun b => (ckey k b, cval f.cov k b)) (k :: t) = (k :: t).map (ckey k) := rfl
      rw [e1]
      have e2 : covColumns (k :: t) = (k :: t).map (ckey k) ++ covColumns t := rfl
      rw [e2, List.append_assoc]
      refine (i1.append_left _).trans ?_
      rw [← List.append_assoc, ← List.append_assoc t]
      exact List.Perm.append_right _ List.perm_append_comm
    · intro x hx
      rw [List.cons_append] at hx
      rcases List.mem_cons.1 hx with rfl | hx
      · simp
      · exact List.mem_cons_of_mem _ (List.mem_append_right _ (i2 x hx))
    · intro a b hab
      rcases hab.cases with ⟨rfl, hb⟩ | hab
      · exact List.mem_cons_of_mem _ (List.mem_append_left _ (List.mem_map.2 ⟨b, hb, rfl⟩))
      · exact List.mem_cons_of_mem _ (List.mem_append_right _ (i3 a b hab))

theorem allKeys_noteps : ∀ k ∈ allKeys, isEps k = false := by decide +kernel

theorem allKeys_nodup : allKeys.Nodup := by decide +kernel

theorem allKeys_nodot : ∀ k ∈ allKeys, '.' ∉ k := by decide +kernel

theorem cov_noteps : ∀ k ∈ covColumns allKeys, isEps k = false := by decide +kernel

theorem cols_nodup : (allKeys ++ covColumns allKeys).Nodup := by decide +kernel

/-- The EPSILON keys of some fits. -/
def HasEps (fits : List Fit) (k : PyStr) : Prop := isEps k = true ∧ ∃ f ∈ fits, k ∈ Dict.keys f.params

/-- Value of a parameter in the line of a window. -/
def pval (k : PyStr) (f : Fit) : ℝ := (f.params.get? k).getD 0

/-- State between windows; `done` are the fits so far. -/
structure Inv (s : St) (done : List Fit) (eps : List PyStr) : Prop where
  fitted : s.1 = allKeys ++ eps
  mem : ∀ k, k ∈ eps ↔ HasEps done k
  nodup : eps.Nodup
  keys : Dict.keys s.2 = allKeys ++ covColumns allKeys ++ eps
  par : ∀ k ∈ allKeys, s.2.get? k = some (done.map (pval k))
  cov : ∀ a b, Le allKeys a b → s.2.get? (ckey a b) = some (done.map fun f => cval f.cov a b)
  drift : ∀ k ∈ eps, ∃ pre f post, done = pre ++ f :: post ∧ (∀ g ∈ pre, k ∉ Dict.keys g.params) ∧ k ∈ Dict.keys f.params ∧
    s.2.get? k = some ((f :: post).map (pval k))

theorem get?_map_nil (l : List PyStr) (k : PyStr) (h : k ∈ l) : Dict.get? (l.map fun k => (k, ([] : List ℝ))) k = some [] := by
  induction l with
  | nil => cases h
  | cons a l ih =>
    rw [List.map_cons]
    unfold Dict.get?
    split_ifs with hc
    · rfl
    · exact ih ((List.mem_cons.1 h).resolve_left (Ne.symm hc))

theorem inv_start : Inv start [] [] where
  fitted := by simp [start]
  mem := by simp [HasEps]
  nodup := List.nodup_nil
  keys := by
    rw [List.append_nil]
    unfold start Dict.keys
    rw [List.map_map]
    exact List.map_id _
  par k hk := get?_map_nil _ k (List.mem_append_left _ hk)
  cov a b hab := get?_map_nil _ _ (List.mem_append_right _ (mem_covColumns.2 ⟨a, b, hab, rfl⟩))
  drift := by simp

/-- Registration of the keys of one fit: what is new has an empty column. -/
theorem registered (ks : List PyStr) (s : St) (eps : List PyStr) (h1 : s.1 = allKeys ++ eps) (h2 : eps.Nodup)
    (h3 : Dict.keys s.2 = allKeys ++ covColumns allKeys ++ eps) (h4 : ∀ k ∈ eps, isEps k = true) :
    ∃ new, (ks.foldl register s).1 = allKeys ++ (eps ++ new) ∧ (eps ++ new).Nodup ∧
      Dict.keys (ks.foldl register s).2 = allKeys ++ covColumns allKeys ++ (eps ++ new) ∧
      (∀ k, k ∈ new ↔ isEps k = true ∧ k ∈ ks ∧ k ∉ eps) ∧
      (∀ k ∈ new, (ks.foldl register s).2.get? k = some []) ∧
      ∀ k ∉ new, (ks.foldl register s).2.get? k = s.2.get? k := by
  induction ks generalizing s eps with
  | nil => exact ⟨[], by simpa using h1, by simpa using h2, by simpa using h3, by simp, by simp, by simp⟩
  | cons x ks ih =>
    rw [List.foldl_cons]
    by_cases hx : x ∉ s.1 ∧ isEps x = true
    · have hxk : x ∉ Dict.keys s.2 := by
        rw [h3]
        intro hc
        rw [h1] at hx
        rcases List.mem_append.1 hc with hc | hc
        · rcases List.mem_append.1 hc with hc | hc
          · exact hx.1 (List.mem_append_left _ hc)
          · rw [cov_noteps x hc] at hx; simp at hx
        · exact hx.1 (List.mem_append_right _ hc)
      have hreg : register s x = (s.1 ++ [x], s.2.set x []) := by
        unfold register
        rw [if_pos hx, if_neg hxk]
      have hxe : x ∉ eps := fun hc => hx.1 (by rw [h1]; exact List.mem_append_right _ hc)
      obtain ⟨new, n1, n2, n3, n4, n5, n6⟩ := ih (register s x) (eps ++ [x]) (by rw [hreg, h1, List.append_assoc])
        (List.Nodup.append h2 (List.nodup_singleton x) (by simpa using hxe))
        (by rw [hreg, keys_set_new _ _ _ hxk]; unfold Dict.keys at h3 ⊢; rw [List.map_append, h3]; simp)
        (by intro k hk; rcases List.mem_append.1 hk with hk | hk
            · exact h4 k hk
            · rw [List.mem_singleton.1 hk]; exact hx.2)
      refine ⟨x :: new, by rw [n1]; simp, by simpa using n2, by rw [n3]; simp, ?_, ?_, ?_⟩
      · intro k
        rw [List.mem_cons, n4]
        simp only [List.mem_append, List.mem_cons, not_or]
        constructor
        · rintro (rfl | ⟨a, b, c, d⟩)
          · exact ⟨hx.2, .inl rfl, hxe⟩
          · exact ⟨a, .inr b, c⟩
        · rintro ⟨a, b, c⟩
          by_cases hkx : k = x
          · exact .inl hkx
          · exact .inr ⟨a, b.resolve_left hkx, c, hkx, by simp⟩
      · intro k hk
        rcases List.mem_cons.1 hk with rfl | hk
        · by_cases hkn : k ∈ new
          · exact n5 k hkn
          · rw [n6 k hkn, hreg, Dict.get?_set_self]
        · exact n5 k hk
      · intro k hk
        simp only [List.mem_cons, not_or] at hk
        rw [n6 k hk.2, hreg, Dict.get?_set_ne _ _ (Ne.symm hk.1)]
    · have hreg : register s x = s := by unfold register; rw [if_neg hx]
      rw [hreg]
      obtain ⟨new, n1, n2, n3, n4, n5, n6⟩ := ih s eps h1 h2 h3 h4
      refine ⟨new, n1, n2, n3, ?_, n5, n6⟩
      intro k
      rw [n4]
      constructor
      · rintro ⟨a, b, c⟩; exact ⟨a, List.mem_cons_of_mem _ b, c⟩
      · rintro ⟨a, b, c⟩
        refine ⟨a, ?_, c⟩
        rcases List.mem_cons.1 b with rfl | b
        · exfalso
          apply hx
          refine ⟨?_, a⟩
          rw [h1]
          intro hc
          rcases List.mem_append.1 hc with hc | hc
          · rw [allKeys_noteps k hc] at a; cases a
          · exact c hc
        · exact b

theorem inv_step {s : St} {done : List Fit} {eps : List PyStr} (h : Inv s done eps) (f : Fit) :
    ∃ s' eps', oneWindow s f = .ok s' ∧ Inv s' (done ++ [f]) eps' := by
  obtain ⟨new, n1, n2, n3, n4, n5, n6⟩ := registered (Dict.keys f.params) s eps h.fitted h.nodup h.keys fun k hk => ((h.mem k).1 hk).1
  generalize hs1 : (Dict.keys f.params).foldl register s = s1 at n1 n3 n5 n6
  have he : ∀ k ∈ eps ++ new, isEps k = true := by
    intro k hk
    rcases List.mem_append.1 hk with hk | hk
    · exact ((h.mem k).1 hk).1
    · exact ((n4 k).1 hk).1
  obtain ⟨a1, a2, a3⟩ := appends_spec s1.2 f allKeys (eps ++ new) allKeys_noteps he (by rw [n3]; intro x hx; simp [hx])
  have hall : (allKeys ++ (covColumns allKeys ++ (eps ++ new))).Nodup := by
    rw [← List.append_assoc]
    refine List.Nodup.append cols_nodup n2 ?_
    intro x hx hx'
    have := he x hx'
    rcases List.mem_append.1 hx with hx | hx
    · rw [allKeys_noteps x hx] at this; cases this
    · rw [cov_noteps x hx] at this; cases this
  obtain ⟨out', o1, o2, o3, o4⟩ := appendAll_ok (appends s1.2 f (allKeys ++ (eps ++ new))) s1.2 (a1.nodup_iff.2 hall)
    (by intro k hk; rw [n3]; have := a1.mem_iff.1 hk; simpa using this)
  refine ⟨(s1.1, out'), eps ++ new, ?_, ?_⟩
  · unfold oneWindow
    dsimp only
    rw [hs1, n1, o1]
  · refine ⟨n1, ?_, n2, o2.trans n3, ?_, ?_, ?_⟩
    · intro k
      rw [List.mem_append, n4, h.mem]
      unfold HasEps
      constructor
      · rintro (⟨a, g, hg, b⟩ | ⟨a, b, _⟩)
        · exact ⟨a, g, by simp [hg], b⟩
        · exact ⟨a, f, by simp, b⟩
      · rintro ⟨a, g, hg, b⟩
        rcases List.mem_append.1 hg with hg | hg
        · exact .inl ⟨a, g, hg, b⟩
        · rw [List.mem_singleton] at hg
          subst hg
          by_cases hk : k ∈ eps
          · exact .inl ((h.mem k).1 hk)
          · right
            refine ⟨a, b, ?_⟩
            rw [h.mem] at hk
            exact hk
    · intro k hk
      have hkn : k ∉ new := fun hc => by
        have := ((n4 k).1 hc).1
        rw [allKeys_noteps k hk] at this; cases this
      have := o3 _ (a2 k (List.mem_append_left _ hk)) _ ((n6 k hkn).trans (h.par k hk))
      rw [this, List.map_append]
      rfl
    · intro a b hab
      have hkn : ckey a b ∉ new := fun hc => by
        have := ((n4 _).1 hc).1
        rw [cov_noteps _ (mem_covColumns.2 ⟨a, b, hab, rfl⟩)] at this; cases this
      have := o3 _ (a3 a b hab) _ ((n6 _ hkn).trans (h.cov a b hab))
      rw [this, List.map_append]
      rfl
    · intro k hk
      rcases List.mem_append.1 hk with hk' | hk'
      · obtain ⟨pre, g, post, d1, d2, d3, d4⟩ := h.drift k hk'
        have hkn : k ∉ new := fun hc => ((n4 k).1 hc).2.2 hk'
        refine ⟨pre, g, post ++ [f], by rw [d1]; simp, d2, d3, ?_⟩
        have := o3 _ (a2 k (List.mem_append_right _ hk)) _ ((n6 k hkn).trans d4)
        rw [this, ← List.cons_append, List.map_append]
        rfl
      · refine ⟨done, f, [], rfl, ?_, ((n4 k).1 hk').2.1, ?_⟩
        · intro g hg hc
          exact ((n4 k).1 hk').2.2 ((h.mem k).2 ⟨((n4 k).1 hk').1, g, hg, hc⟩)
        · exact o3 _ (a2 k (List.mem_append_right _ hk)) _ (n5 k hk')

theorem windows_ok (fits : List Fit) {s : St} {done : List Fit} {eps : List PyStr} (h : Inv s done eps) :
    ∃ s' eps', windows s fits = .ok s' ∧ Inv s' (done ++ fits) eps' := by
  induction fits generalizing s done eps with
  | nil => exact ⟨s, eps, rfl, by simpa using h⟩
  | cons f l ih =>
    obtain ⟨s1, e1, h1, h2⟩ := inv_step h f
    obtain ⟨s2, e2, h3, h4⟩ := ih h2
    refine ⟨s2, e2, ?_, by simpa using h4⟩
    unfold windows
    rw [h1]
    exact h3

/-! ### the final names -/

theorem pyIn_iff (sub s : PyStr) : pyIn sub s = true ↔ ∃ p r, s = p ++ sub ++ r := by
  constructor
  · intro h
    induction s with
    | nil =>
      simp only [pyIn, List.isEmpty_iff] at h
      exact ⟨[], [], by simp [h]⟩
    | cons c t ih =>
      unfold pyIn at h
      rcases Bool.or_eq_true_iff.1 h with h | h
      · obtain ⟨r, hr⟩ := List.isPrefixOf_iff_prefix.1 h
        exact ⟨[], r, by simp [hr]⟩
      · obtain ⟨p, r, hr⟩ := ih h
        exact ⟨c :: p, r, by rw [hr]; simp⟩
  · rintro ⟨p, r, rfl⟩
    exact Verif.Lemmas.Str.pyIn_append p sub r

theorem isEps_ckey {a b : PyStr} (h : isEps a = true ∨ isEps b = true) : isEps (ckey a b) = true := by
  unfold isEps at *
  simp only [pyIn_iff] at *
  unfold ckey
  rcases h with ⟨p, r, rfl⟩ | ⟨p, r, rfl⟩
  · exact ⟨"COV.".toList ++ p, r ++ ('.' :: b), by simp only [List.append_assoc]⟩
  · exact ⟨"COV.".toList ++ a ++ ('.' :: p), r, by simp only [List.append_assoc, List.cons_append]⟩

theorem not_pyIn_eps {k x : PyStr} (hk : isEps k = true) (hx : isEps x = false) : pyIn k x = false := by
  by_contra hc
  rw [Bool.not_eq_false] at hc
  obtain ⟨p, r, rfl⟩ := (pyIn_iff _ _).1 hc
  unfold isEps at hk hx
  obtain ⟨p', r', rfl⟩ := (pyIn_iff _ _).1 hk
  rw [Bool.eq_false_iff] at hx
  apply hx
  rw [pyIn_iff]
  exact ⟨p ++ p', r' ++ r, by simp only [List.append_assoc]⟩

open Verif.Model.FitHandler (Mode suffix rename renameStep)

/-- Renaming of one column for one key. -/
def rn (sfx key n : PyStr) : PyStr := if pyIn key n then (key ++ sfx).intercalate (split key n) else n

/-- Renaming of one column. -/
def nameOf (sfx : PyStr) (keys : List PyStr) (x : PyStr) : PyStr := keys.foldl (fun n key => rn sfx key n) x

theorem rename_one (sfx : PyStr) (keys : List PyStr) (x : PyStr) : (rename sfx keys [x]).headD [] = nameOf sfx keys x := by
  have : ∀ x, rename sfx keys [x] = [nameOf sfx keys x] := by
    induction keys with
    | nil => intro x; rfl
    | cons k t ih => intro x; exact ih (rn sfx k x)
  rw [this]
  rfl

theorem nameOf_eps {sfx : PyStr} {keys : List PyStr} (hk : ∀ k ∈ keys, isEps k = true) {x : PyStr} (hx : isEps x = false) :
    nameOf sfx keys x = x := by
  induction keys with
  | nil => rfl
  | cons k t ih =>
    have : rn sfx k x = x := by unfold rn; rw [not_pyIn_eps (hk k (by simp)) hx]; rfl
    show nameOf sfx t (rn sfx k x) = x
    rw [this]
    exact ih fun k hk' => hk k (by simp [hk'])

theorem nameOf_append (sfx : PyStr) (l l' : List PyStr) (x : PyStr) :
    nameOf sfx (l ++ l') x = nameOf sfx l' (nameOf sfx l x) := List.foldl_append ..

/-- Starts with `EP`. -/
def EP (x : PyStr) : Prop := ∃ t, x = 'E' :: 'P' :: t

theorem splitAux_start (sep cur : PyStr) (k : ℕ) (s : PyStr) : ∃ r l, splitAux sep cur k s = (cur.reverse ++ r) :: l := by
  induction s generalizing cur k with
  | nil => exact ⟨[], [], by cases k <;> simp [splitAux]⟩
  | cons c t ih =>
    cases k with
    | succ k => exact ih cur k
    | zero =>
      unfold splitAux
      split_ifs with h
      · exact ⟨[], splitAux sep [] (sep.length - 1) t, by simp⟩
      · obtain ⟨r, l, e⟩ := ih (c :: cur) 0
        exact ⟨c :: r, l, by rw [e]; simp⟩

theorem rn_EP (sfx key x : PyStr) (hk : EP key ∨ ∃ c t, key = c :: t ∧ c ≠ 'E' ∧ c ≠ 'P') (hx : EP x) : EP (rn sfx key x) := by
  unfold rn
  split_ifs with hin
  · obtain ⟨t, rfl⟩ := hx
    unfold split
    by_cases hp : key.isPrefixOf ('E' :: 'P' :: t) = true
    · have hEP : EP key := by
        rcases hk with hk | ⟨c, u, rfl, h1, h2⟩
        · exact hk
        · simp only [List.isPrefixOf, Bool.and_eq_true, beq_iff_eq] at hp
          exact absurd hp.1 h1
      obtain ⟨u, rfl⟩ := hEP
      unfold splitAux
      rw [if_pos hp]
      obtain ⟨a, l, e⟩ : ∃ a l, splitAux ('E' :: 'P' :: u) [] (('E' :: 'P' :: u).length - 1) ('P' :: t) = a :: l := by
        obtain ⟨r, l, e⟩ := splitAux_start ('E' :: 'P' :: u) [] (('E' :: 'P' :: u).length - 1) ('P' :: t)
        exact ⟨_, _, e⟩
      rw [e]
      exact ⟨u ++ sfx ++ (('E' :: 'P' :: u) ++ sfx).intercalate (a :: l), by simp [List.intercalate_cons_of_ne_nil]⟩
    · unfold splitAux
      rw [if_neg hp]
      have hp2 : key.isPrefixOf ('P' :: t) = false := by
        rcases hk with ⟨u, rfl⟩ | ⟨c, u, rfl, h1, h2⟩
        · simp [List.isPrefixOf]
        · simp [List.isPrefixOf, h2]
      unfold splitAux
      rw [if_neg (by simp [hp2])]
      obtain ⟨r, l, e⟩ := splitAux_start key ['P', 'E'] 0 t
      rw [e]
      cases l with
      | nil => exact ⟨r, by simp [List.intercalate]⟩
      | cons b l => exact ⟨r ++ (key ++ sfx) ++ (key ++ sfx).intercalate (b :: l), by simp [List.intercalate_cons_of_ne_nil]⟩
  · exact hx

theorem nameOf_EP {sfx : PyStr} {keys : List PyStr} (hk : ∀ k ∈ keys, EP k ∨ ∃ c t, k = c :: t ∧ c ≠ 'E' ∧ c ≠ 'P') {x : PyStr}
    (hx : EP x) : EP (nameOf sfx keys x) := by
  induction keys generalizing x with
  | nil => exact hx
  | cons k t ih => exact ih (fun k hk' => hk k (by simp [hk'])) (rn_EP sfx k x (hk k (by simp)) hx)

/-- Columns present at the start. -/
def cols : List PyStr := allKeys ++ covColumns allKeys

/-- Name after the variances have become errors. -/
def errName (fitted : List PyStr) (x : PyStr) : PyStr :=
  match fitted.find? fun k => x = ckey k k with
  | some k => ekey k
  | none => x

/-- Final name of a column present at the start. -/
def finalName (m : Mode) (x : PyStr) : PyStr := nameOf (suffix m) (suffixed []) (errName allKeys x)

theorem final_nodup (m : Mode) : (cols.map (finalName m)).Nodup := by cases m <;> decide +kernel

theorem final_noteps (m : Mode) : ∀ x ∈ cols, isEps (finalName m x) = false := by cases m <;> decide +kernel

theorem final_EP (m : Mode) : ∀ x ∈ cols, (finalName m x).take 2 ≠ ['E', 'P'] := by cases m <;> decide +kernel

theorem final_par (m : Mode) : ∀ k ∈ allKeys, finalName m k = k ++ suffix m := by cases m <;> decide +kernel

theorem final_err (m : Mode) : ∀ k ∈ allKeys, finalName m (ckey k k) = ekey (k ++ suffix m) := by cases m <;> decide +kernel

theorem final_opposite (m : Mode) : ∀ a ∈ allKeys, ∀ b ∈ allKeys, ckey a b ∉ covColumns allKeys →
    ckey (a ++ suffix m) (b ++ suffix m) ∉ cols.map (finalName m) := by
  cases m <;> decide +kernel

theorem final_cov (m : Mode) : ∀ a ∈ allKeys, ∀ b ∈ allKeys, a ≠ b → finalName m (ckey a b) = ckey (a ++ suffix m) (b ++ suffix m) := by
  cases m <;> decide +kernel

theorem par_noterr : ∀ k ∈ allKeys, (allKeys.find? fun a => k = ckey a a) = none := by decide +kernel

theorem par_notcov : ∀ k ∈ allKeys, ∀ a ∈ allKeys, ∀ b ∈ allKeys, k ≠ ckey a b := by decide +kernel

theorem find_cov : ∀ a ∈ allKeys, ∀ b ∈ allKeys, (allKeys.find? fun k => ckey a b = ckey k k) = if a = b then some a else none := by
  decide +kernel

theorem suffixed_start : ∀ k ∈ suffixed [], k.head? ≠ none ∧ k.head? ≠ some 'E' ∧ k.head? ≠ some 'P' := by decide +kernel

theorem cols_noteps : ∀ x ∈ cols, isEps x = false := by
  intro x hx
  rcases List.mem_append.1 hx with h | h
  · exact allKeys_noteps x h
  · exact cov_noteps x h

theorem find_fitted {eps : List PyStr} (he : ∀ k ∈ eps, isEps k = true) {x : PyStr} (hx : isEps x = false) :
    ((allKeys ++ eps).find? fun k => x = ckey k k) = allKeys.find? fun k => x = ckey k k := by
  rw [List.find?_append]
  have : (eps.find? fun k => x = ckey k k) = none := by
    rw [List.find?_eq_none]
    intro k hk hc
    have h1 := isEps_ckey (a := k) (b := k) (.inl (he k hk))
    rw [decide_eq_true_eq] at hc
    rw [← hc, hx] at h1
    cases h1
  rw [this]
  simp

theorem get?_map_some {d : Dict PyStr (List ℝ)} (F : PyStr × List ℝ → PyStr × List ℝ) {c : PyStr × List ℝ} (hc : c ∈ d)
    (hu : ∀ c' ∈ d, (F c').1 = (F c).1 → c' = c) : Dict.get? (d.map F) (F c).1 = some (F c).2 := by
  induction d with
  | nil => cases hc
  | cons e t ih =>
    rw [List.map_cons]
    show (if (F e).1 = (F c).1 then some (F e).2 else Dict.get? (t.map F) (F c).1) = _
    split_ifs with h
    · rw [hu e (by simp) h]
    · refine ih ?_ fun c' h' => hu c' (by simp [h'])
      rcases List.mem_cons.1 hc with rfl | hc
      · exact absurd rfl h
      · exact hc

theorem get?_map_none {d : Dict PyStr (List ℝ)} (F : PyStr × List ℝ → PyStr × List ℝ) {x : PyStr}
    (hu : ∀ c ∈ d, (F c).1 ≠ x) : Dict.get? (d.map F) x = none := by
  rw [get?_none]
  intro hc
  unfold Dict.keys at hc
  rw [List.map_map, List.mem_map] at hc
  obtain ⟨c, h1, h2⟩ := hc
  exact hu c h1 h2

/-- An EPSILON key of the code. -/
def IsDrift (k : PyStr) : Prop := ∃ s, k ∈ epsKeys s

theorem IsDrift.ep {k : PyStr} (h : IsDrift k) : EP k := by
  obtain ⟨s, h⟩ := h
  simp only [epsKeys, List.mem_cons, List.not_mem_nil, or_false] at h
  rcases h with rfl | rfl
  · exact ⟨"SILON_T_".toList ++ Nat.toDigits 10 s, rfl⟩
  · exact ⟨"SILON_P_".toList ++ Nat.toDigits 10 s, rfl⟩

theorem IsDrift.eps {k : PyStr} (h : IsDrift k) : isEps k = true := by
  obtain ⟨s, h⟩ := h
  simp only [epsKeys, List.mem_cons, List.not_mem_nil, or_false] at h
  unfold isEps
  rw [pyIn_iff]
  rcases h with rfl | rfl
  · exact ⟨[], "_T_".toList ++ Nat.toDigits 10 s, rfl⟩
  · exact ⟨[], "_P_".toList ++ Nat.toDigits 10 s, rfl⟩

/-- No column is empty after a window. -/
theorem Inv.nonempty {s : St} {done : List Fit} {eps : List PyStr} (h : Inv s done eps) (hne : done ≠ []) :
    (s.2.filter fun c => c.2 ≠ []) = s.2 := by
  have hn : (Dict.keys s.2).Nodup := by
    rw [h.keys]
    refine List.Nodup.append cols_nodup h.nodup ?_
    intro x hx hx'
    have h1 := ((h.mem x).1 hx').1
    rw [cols_noteps x hx] at h1
    cases h1
  rw [List.filter_eq_self]
  rintro ⟨k, v⟩ hc
  have hg := get?_of_mem hn hc
  have hk : k ∈ Dict.keys s.2 := List.mem_map.2 ⟨_, hc, rfl⟩
  rw [h.keys] at hk
  simp only [ne_eq, decide_not, Bool.not_eq_true', decide_eq_false_iff_not]
  rcases List.mem_append.1 hk with hk | hk
  · rcases List.mem_append.1 hk with hk | hk
    · rw [h.par k hk] at hg
      rw [← Option.some.inj hg]
      simpa using hne
    · obtain ⟨a, b, hab, rfl⟩ := mem_covColumns.1 hk
      rw [h.cov a b hab] at hg
      rw [← Option.some.inj hg]
      simpa using hne
  · obtain ⟨pre, f, post, d1, d2, d3, d4⟩ := h.drift k hk
    rw [d4] at hg
    rw [← Option.some.inj hg]
    simp

theorem Inv.nodup_keys {s : St} {done : List Fit} {eps : List PyStr} (h : Inv s done eps) : (Dict.keys s.2).Nodup := by
  rw [h.keys]
  refine List.Nodup.append cols_nodup h.nodup ?_
  intro x hx hx'
  have h1 := ((h.mem x).1 hx').1
  rw [cols_noteps x hx] at h1
  cases h1

/-- The table when it can be made. -/
theorem table_ok {mode : Mode} {known : List PyStr} {fits : List Fit} {t : Dict PyStr (List ℝ)} (hne : fits ≠ [])
    (h : table mode known fits = .ok t) :
    ∃ s eps known', Inv s fits eps ∧ (∀ k ∈ known', k ∈ known ∨ k ∈ eps) ∧
      t = (dropNull (allKeys ++ eps) s.2).map fun c =>
        (nameOf (suffix mode) (suffixed [] ++ known') (errName (allKeys ++ eps) c.1),
          if ((allKeys ++ eps).find? fun k => c.1 = ckey k k) = none then c.2 else c.2.map Real.sqrt) := by
  obtain ⟨s, eps, h1, h2⟩ := windows_ok fits inv_start
  rw [List.nil_append] at h2
  obtain ⟨fitted, out⟩ := s
  have hf : fitted = allKeys ++ eps := h2.fitted
  have hfil := h2.nonempty hne
  dsimp only at hfil
  unfold table at h
  rw [h1] at h
  dsimp only at h
  rw [hfil] at h
  refine ⟨(fitted, out), eps, known ++ (fitted.filter fun k => isEps k && k ∉ known), h2, ?_, ?_⟩
  · intro k hk
    rcases List.mem_append.1 hk with hk | hk
    · exact .inl hk
    · rw [List.mem_filter, hf] at hk
      rcases List.mem_append.1 hk.1 with hk' | hk'
      · have := hk.2
        rw [allKeys_noteps k hk'] at this
        cases this
      · exact .inr hk'
  · dsimp only
    have hgoal : ∀ out : Dict PyStr (List ℝ), ((toErrors fitted (dropNull fitted out)).map fun c =>
        ((rename (suffix mode) (suffixed (known ++ (fitted.filter fun k => isEps k && k ∉ known))) [c.1]).headD [], c.2)) =
        (dropNull (allKeys ++ eps) out).map fun c =>
        (nameOf (suffix mode) (suffixed [] ++ (known ++ (fitted.filter fun k => isEps k && k ∉ known))) (errName (allKeys ++ eps) c.1),
          if ((allKeys ++ eps).find? fun k => c.1 = ckey k k) = none then c.2 else c.2.map Real.sqrt) := by
      intro out
      unfold toErrors
      rw [List.map_map, hf]
      refine List.map_congr_left fun c _ => ?_
      simp only [Function.comp, rename_one]
      have : ∀ kn : List PyStr, suffixed kn = suffixed [] ++ kn := by intro kn; simp [suffixed]
      rw [this]
      unfold errName
      rcases (allKeys ++ eps).find? fun k => c.1 = ckey k k with _ | k <;> simp
    cases out with
    | nil => have := h2.keys; simp [Dict.keys, allKeys, staticKeys] at this
    | cons c l =>
      dsimp only at h
      split_ifs at h with hl
      rw [← Except.ok.inj h]
      exact hgoal (c :: l)

end Verif.Lemmas.CovTable

namespace Verif.Props
open Verif.Py Verif.Model.CovTable Verif.Lemmas.CovTable
open Verif.Model.Fitter hiding Mode
open Verif.Model.FitHandler (Mode suffix)

attribute [local irreducible] finalName nameOf errName

/-- Final names. -/
theorem Lemmas.CovTable.names (mode : Mode) {known' eps : List PyStr} (hd : ∀ k ∈ eps, IsDrift k) (hkn : ∀ k ∈ known', IsDrift k) :
    (∀ y ∈ cols, nameOf (suffix mode) (suffixed [] ++ known') (errName (allKeys ++ eps) y) = finalName mode y) ∧
    ∀ k ∈ eps, EP (nameOf (suffix mode) (suffixed [] ++ known') (errName (allKeys ++ eps) k)) := by
  have he : ∀ k ∈ eps, isEps k = true := fun k hk => (hd k hk).eps
  have hname : ∀ y ∈ cols, nameOf (suffix mode) (suffixed [] ++ known') (errName (allKeys ++ eps) y) = finalName mode y := by
    intro y hy
    have e1 : errName (allKeys ++ eps) y = errName allKeys y := by
      unfold errName
      rw [find_fitted he (cols_noteps y hy)]
    rw [e1]
    rw [nameOf_append]
    have := final_noteps mode y hy
    unfold finalName at this ⊢
    exact nameOf_eps (fun k hk => (hkn k hk).eps) this
  have hnameE : ∀ k ∈ eps, EP (nameOf (suffix mode) (suffixed [] ++ known') (errName (allKeys ++ eps) k)) := by
    intro k hk
    obtain ⟨u, hu⟩ := (hd k hk).ep
    have e1 : errName (allKeys ++ eps) k = k := by
      unfold errName
      have : ((allKeys ++ eps).find? fun a => k = ckey a a) = none := by
        rw [List.find?_eq_none]
        intro a _ hc
        rw [decide_eq_true_eq, hu] at hc
        have := (List.cons.inj hc).1
        exact absurd this (by decide)
      rw [this]
    rw [e1]
    refine nameOf_EP ?_ (hd k hk).ep
    intro a ha
    rcases List.mem_append.1 ha with ha | ha
    · right
      obtain ⟨s1, s2, s3⟩ := suffixed_start a ha
      cases a with
      | nil => simp at s1
      | cons c r => exact ⟨c, r, rfl, fun hc => s2 (by simp [hc]), fun hc => s3 (by simp [hc])⟩
    · exact .inl (hkn a ha).ep
  exact ⟨hname, hnameE⟩

/-- Final entry of a column present at the start. -/
theorem Lemmas.CovTable.entry {mode : Mode} {known : List PyStr} {fits : List Fit} {t : Dict PyStr (List ℝ)} (hne : fits ≠ [])
    (hk : ∀ k ∈ known, IsDrift k) (hf : ∀ f ∈ fits, ∀ k ∈ Dict.keys f.params, isEps k = true → IsDrift k)
    (h : table mode known fits = .ok t) {x : PyStr} (hx : x ∈ cols) (v : List ℝ)
    (hv : (∃ k ∈ allKeys, x = k ∧ v = fits.map (pval k)) ∨ (∃ a b, Le allKeys a b ∧ x = ckey a b ∧ v = fits.map fun f => cval f.cov a b)) :
    (((∃ a ∈ allKeys, ∃ b ∈ allKeys, a ≠ b ∧ x = ckey a b) ∧ ∀ w ∈ v, w = 0) → t.get? (finalName mode x) = none) ∧
    (¬ ((∃ a ∈ allKeys, ∃ b ∈ allKeys, a ≠ b ∧ x = ckey a b) ∧ ∀ w ∈ v, w = 0) → t.get? (finalName mode x) =
      some (if (allKeys.find? fun k => x = ckey k k) = none then v else v.map Real.sqrt)) := by
  obtain ⟨s, eps, known', hi, hk', rfl⟩ := table_ok hne h
  have he : ∀ k ∈ eps, isEps k = true := fun k hk => ((hi.mem k).1 hk).1
  have hd : ∀ k ∈ eps, IsDrift k := by
    intro k hk
    obtain ⟨a, f, hf', b⟩ := (hi.mem k).1 hk
    exact hf f hf' k b a
  have hkn : ∀ k ∈ known', IsDrift k := fun k hk'' => (hk' k hk'').elim (hk k) (hd k)
  obtain ⟨hname, hnameE⟩ := Lemmas.CovTable.names mode hd hkn
  -- the column
  have hget : s.2.get? x = some v := by
    rcases hv with ⟨k, hk, rfl, rfl⟩ | ⟨a, b, hab, rfl, rfl⟩
    · exact hi.par _ hk
    · exact hi.cov a b hab
  have hmem : (x, v) ∈ s.2 := get?_mem hget
  have hkeys : ∀ c ∈ s.2, c.1 ∈ cols ∨ c.1 ∈ eps := by
    intro c hc
    have : c.1 ∈ Dict.keys s.2 := List.mem_map.2 ⟨c, hc, rfl⟩
    rw [hi.keys] at this
    exact List.mem_append.1 this
  have huniq : ∀ c ∈ s.2, nameOf (suffix mode) (suffixed [] ++ known') (errName (allKeys ++ eps) c.1) = finalName mode x → c = (x, v) := by
    rintro ⟨k, w⟩ hc hn
    rcases hkeys _ hc with hcc | hcc
    · rw [hname k hcc] at hn
      have : k = x := List.inj_on_of_nodup_map (final_nodup mode) hcc hx hn
      subst this
      have := get?_of_mem hi.nodup_keys hc
      rw [hget] at this
      rw [Option.some.inj this]
    · obtain ⟨u, hu⟩ := hnameE k hcc
      rw [hn] at hu
      have := final_EP mode x hx
      rw [hu] at this
      simp at this
  have hdrop : ((∃ a ∈ allKeys ++ eps, ∃ b ∈ allKeys ++ eps, a ≠ b ∧ x = ckey a b) ∧ ∀ w ∈ v, w = 0) ↔
      ((∃ a ∈ allKeys, ∃ b ∈ allKeys, a ≠ b ∧ x = ckey a b) ∧ ∀ w ∈ v, w = 0) := by
    have hside : ∀ a b, x = ckey a b → (a ∈ eps ∨ b ∈ eps) → False := by
      intro a b e hor
      have h1 := isEps_ckey (a := a) (b := b) (hor.imp (he a) (he b))
      rw [← e, cols_noteps x hx] at h1
      cases h1
    constructor
    · rintro ⟨⟨a, ha, b, hb, hab, e⟩, hz⟩
      refine ⟨⟨a, ?_, b, ?_, hab, e⟩, hz⟩
      · exact (List.mem_append.1 ha).resolve_right fun hc => hside a b e (.inl hc)
      · exact (List.mem_append.1 hb).resolve_right fun hc => hside a b e (.inr hc)
    · rintro ⟨⟨a, ha, b, hb, hab, e⟩, hz⟩
      exact ⟨⟨a, List.mem_append_left _ ha, b, List.mem_append_left _ hb, hab, e⟩, hz⟩
  constructor
  · intro hcase
    refine get?_map_none _ ?_
    rintro c hc hn
    dsimp only at hn
    unfold dropNull at hc
    rw [List.mem_filter] at hc
    have := huniq c hc.1 hn
    subst this
    have h2 := hc.2
    simp only [Bool.not_eq_true', decide_eq_false_iff_not] at h2
    exact h2 (hdrop.2 hcase)
  · intro hcase
    have hc : (x, v) ∈ dropNull (allKeys ++ eps) s.2 := by
      unfold dropNull
      rw [List.mem_filter]
      refine ⟨hmem, ?_⟩
      simp only [Bool.not_eq_true', decide_eq_false_iff_not]
      rwa [hdrop]
    have hsub : ∀ c ∈ dropNull (allKeys ++ eps) s.2, c ∈ s.2 := by
      intro c hc
      unfold dropNull at hc
      exact (List.mem_filter.1 hc).1
    have := get?_map_some (fun c : PyStr × List ℝ => (nameOf (suffix mode) (suffixed [] ++ known') (errName (allKeys ++ eps) c.1),
          if ((allKeys ++ eps).find? fun k => c.1 = ckey k k) = none then c.2 else c.2.map Real.sqrt)) hc
        (fun c' hc' hn => huniq c' (hsub c' hc') (hn.trans (hname x hx)))
    dsimp only at this
    rw [hname x hx, find_fitted he (cols_noteps x hx)] at this
    exact this

/-- All names in the table. -/
theorem Lemmas.CovTable.all_names {mode : Mode} {known : List PyStr} {fits : List Fit} {t : Dict PyStr (List ℝ)} (hne : fits ≠ [])
    (hk : ∀ k ∈ known, IsDrift k) (hf : ∀ f ∈ fits, ∀ k ∈ Dict.keys f.params, isEps k = true → IsDrift k)
    (h : table mode known fits = .ok t) : ∀ x ∈ Dict.keys t, x ∈ cols.map (finalName mode) ∨ EP x := by
  obtain ⟨s, eps, known', hi, hk', rfl⟩ := table_ok hne h
  have hd : ∀ k ∈ eps, IsDrift k := by
    intro k hk
    obtain ⟨a, f, hf', b⟩ := (hi.mem k).1 hk
    exact hf f hf' k b a
  obtain ⟨hname, hnameE⟩ := Lemmas.CovTable.names mode hd fun k hk'' => (hk' k hk'').elim (hk k) (hd k)
  intro x hx
  unfold Dict.keys at hx
  rw [List.map_map, List.mem_map] at hx
  obtain ⟨c, hc, rfl⟩ := hx
  unfold dropNull at hc
  have hc := (List.mem_filter.1 hc).1
  have hkeys : c.1 ∈ Dict.keys s.2 := List.mem_map.2 ⟨c, hc, rfl⟩
  rw [hi.keys] at hkeys
  simp only [Function.comp]
  rcases List.mem_append.1 hkeys with hcc | hcc
  · left
    have hcc : c.1 ∈ cols := hcc
    rw [hname c.1 hcc]
    exact List.mem_map.2 ⟨c.1, hcc, rfl⟩
  · exact .inr (hnameE c.1 hcc)

/-- **C100**. The table of results of the windows (a table `Table` accepts), for the parameters other than EPSILON: a column with the value
of the parameter, one with the square root of its variance, and for two parameters, in the order arm lengths, theta and phi
offset, x and y offset, theta and phi scale, a column with their covariance, left out exactly if it is zero in all windows;
none for two parameters in the opposite order. -/
theorem C100_table (mode : Mode) (known : List PyStr) (fits : List Fit) (t : Dict PyStr (List ℝ)) (hne : fits ≠ [])
    (hk : ∀ k ∈ known, IsDrift k) (hf : ∀ f ∈ fits, ∀ k ∈ Dict.keys f.params, isEps k = true → IsDrift k)
    (h : table mode known fits = .ok t) :
    (∀ k ∈ allKeys, t.get? (k ++ suffix mode) = some (fits.map fun f => (f.params.get? k).getD 0)) ∧
    (∀ k ∈ allKeys, t.get? ("ERR.".toList ++ k ++ suffix mode) = some (fits.map fun f => Real.sqrt (cval f.cov k k))) ∧
    (∀ i j : ℕ, i < j → ∀ a b, allKeys[i]? = some a → allKeys[j]? = some b →
      ((∀ f ∈ fits, cval f.cov a b = 0) → t.get? ("COV.".toList ++ a ++ suffix mode ++ ".".toList ++ b ++ suffix mode) = none) ∧
      ((∃ f ∈ fits, cval f.cov a b ≠ 0) → t.get? ("COV.".toList ++ a ++ suffix mode ++ ".".toList ++ b ++ suffix mode) =
        some (fits.map fun f => cval f.cov a b)) ∧
      t.get? ("COV.".toList ++ b ++ suffix mode ++ ".".toList ++ a ++ suffix mode) = none) := by
  refine ⟨?_, ?_, ?_⟩
  · intro k hk'
    have := (Lemmas.CovTable.entry hne hk hf h (x := k) (List.mem_append_left _ hk') _ (.inl ⟨k, hk', rfl, rfl⟩)).2 ?_
    · rw [final_par mode k hk', par_noterr k hk', if_pos rfl] at this
      exact this
    · rintro ⟨⟨a, ha, b, hb, _, e⟩, _⟩
      exact par_notcov k hk' a ha b hb e
  · intro k hk'
    have hle : Le allKeys k k := by
      obtain ⟨i, hi⟩ := List.mem_iff_getElem?.1 hk'
      exact ⟨i, i, le_rfl, hi, hi⟩
    have := (Lemmas.CovTable.entry hne hk hf h (x := ckey k k) (List.mem_append_right _ (mem_covColumns.2 ⟨k, k, hle, rfl⟩)) _
      (.inr ⟨k, k, hle, rfl, rfl⟩)).2 ?_
    · rw [final_err mode k hk', find_cov k hk' k hk'] at this
      simp only [if_true, reduceCtorEq, if_false, List.map_map] at this
      rw [List.append_assoc]
      exact this
    · rintro ⟨⟨a, ha, b, hb, hne', e⟩, _⟩
      obtain ⟨e1, e2⟩ := ckey_inj (allKeys_nodot k hk') (allKeys_nodot a ha) e
      exact hne' (e1.symm.trans e2)
  · intro i j hij a b ha hb
    have hle : Le allKeys a b := ⟨i, j, hij.le, ha, hb⟩
    have hab : a ≠ b := by
      rintro rfl
      obtain ⟨h1, e1⟩ := List.getElem?_eq_some_iff.1 ha
      obtain ⟨h2, e2⟩ := List.getElem?_eq_some_iff.1 hb
      have := (List.Nodup.getElem_inj_iff allKeys_nodup).1 (e1.trans e2.symm)
      omega
    have := Lemmas.CovTable.entry hne hk hf h (x := ckey a b) (List.mem_append_right _ (mem_covColumns.2 ⟨a, b, hle, rfl⟩)) _
      (.inr ⟨a, b, hle, rfl, rfl⟩)
    rw [final_cov mode a hle.mem.1 b hle.mem.2 hab, find_cov a hle.mem.1 b hle.mem.2, if_neg hab, if_pos rfl] at this
    have hform : "COV.".toList ++ a ++ suffix mode ++ ".".toList ++ b ++ suffix mode = ckey (a ++ suffix mode) (b ++ suffix mode) := by
      unfold ckey
      simp
    rw [hform]
    refine ⟨?_, ?_, ?_⟩
    · intro hz
      refine this.1 ?_
      refine ⟨⟨a, hle.mem.1, b, hle.mem.2, hab, rfl⟩, ?_⟩
      intro w hw
      obtain ⟨f, hf', rfl⟩ := List.mem_map.1 hw
      exact hz f hf'
    · rintro ⟨f, hf', hz⟩
      refine this.2 ?_
      rintro ⟨_, hall⟩
      exact hz (hall _ (List.mem_map.2 ⟨f, hf', rfl⟩))
    · have hform' : "COV.".toList ++ b ++ suffix mode ++ ".".toList ++ a ++ suffix mode = ckey (b ++ suffix mode) (a ++ suffix mode) := by
        unfold ckey
        simp
      rw [hform', get?_none]
      intro hc
      rcases Lemmas.CovTable.all_names hne hk hf h _ hc with hc | ⟨u, hu⟩
      · refine final_opposite mode b hle.mem.2 a hle.mem.1 ?_ hc
        intro hm
        obtain ⟨x, y, hxy, e⟩ := mem_covColumns.1 hm
        obtain ⟨rfl, rfl⟩ := ckey_inj (allKeys_nodot b hle.mem.2) (allKeys_nodot x hxy.mem.1) e
        exact hab (Le.antisymm allKeys_nodup hle hxy)
      · have := (List.cons.inj hu).1
        exact absurd this (by decide)

/-- **C100**. What `fit_params` returns for a pair of parameters, as read by `_process_cases`: the element of the covariance matrix (for a
symmetric matrix) if both are fitted, else 0. -/
theorem C100_dictionary (free fixed : List PyStr) (hn : free.Nodup) (hn' : fixed.Nodup) (hd : ∀ k ∈ free, '.' ∉ k)
    (hd' : ∀ k ∈ fixed, '.' ∉ k) (hdis : ∀ k ∈ free, k ∉ fixed) (c : ℕ → ℕ → ℝ) (hc : ∀ i j, c i j = c j i) :
    (∀ (i j : ℕ) (a b : PyStr), free[i]? = some a → free[j]? = some b → cval (covDict free fixed c) a b = c i j) ∧
    (∀ a b : PyStr, '.' ∉ a → '.' ∉ b → a ∉ free ∨ b ∉ free → cval (covDict free fixed c) a b = 0) :=
  cval_covDict hn hn' hd hd' hdis c hc

/-- **C100**. The pass ends with an exception exactly if a window other than the first has an EPSILON parameter which the first has not, and
the exception is then exit code 12. -/
theorem C100_exit (mode : Mode) (known : List PyStr) (fits : List Fit) (e : PyErr) :
    table mode known fits = .error e ↔ e = .sysExit 12 ∧ ∃ g l, fits = g :: l ∧ ∃ f ∈ l, ∃ k ∈ Dict.keys f.params,
      isEps k = true ∧ k ∉ Dict.keys g.params := by
  obtain ⟨⟨fitted, out⟩, eps, h1, h2⟩ := windows_ok fits inv_start
  rw [List.nil_append] at h2
  unfold table
  rw [h1]
  dsimp only
  cases fits with
  | nil =>
    have hnil : (out.filter fun c => c.2 ≠ []) = [] := by
      rw [List.filter_eq_nil_iff]
      rintro ⟨k, v⟩ hc
      have hg := get?_of_mem h2.nodup_keys hc
      have hk : k ∈ Dict.keys out := List.mem_map.2 ⟨_, hc, rfl⟩
      rw [h2.keys] at hk
      simp only [ne_eq, decide_not, Bool.not_eq_true', decide_eq_false_iff_not, not_not]
      rcases List.mem_append.1 hk with hk | hk
      · rcases List.mem_append.1 hk with hk | hk
        · rw [h2.par k hk] at hg
          exact (Option.some.inj hg).symm
        · obtain ⟨a, b, hab, rfl⟩ := mem_covColumns.1 hk
          rw [h2.cov a b hab] at hg
          exact (Option.some.inj hg).symm
      · obtain ⟨_, f, hf, _⟩ := (h2.mem k).1 hk
        cases hf
    rw [hnil]
    simp
  | cons g l =>
    have hfil := h2.nonempty (by simp)
    dsimp only at hfil
    rw [hfil]
    have hnk := h2.nodup_keys
    have hkeys := h2.keys
    cases out with
    | nil => simp [Dict.keys, allKeys, staticKeys] at hkeys
    | cons c cs =>
      dsimp only
      have hc1 : c.1 = "LENGTH_R1".toList := by
        have := congrArg List.head? hkeys
        simp only [Dict.keys, List.map_cons, List.head?_cons] at this
        exact Option.some.inj (this.trans rfl)
      have hlen : c.2.length = (g :: l).length := by
        have h3 := h2.par c.1 (by rw [hc1]; decide)
        have h4 := get?_of_mem hnk (show (c.1, c.2) ∈ c :: cs by simp)
        dsimp only at h3
        rw [h4] at h3
        rw [Option.some.inj h3]
        simp
      have hiff : (cs.all fun c' => c'.2.length = c.2.length) = true ↔ ¬ ∃ f ∈ l, ∃ k ∈ Dict.keys f.params,
          isEps k = true ∧ k ∉ Dict.keys g.params := by
        rw [List.all_eq_true]
        constructor
        · rintro hall ⟨f, hf, k, hk, hke, hkg⟩
          have hkeps : k ∈ eps := (h2.mem k).2 ⟨hke, f, by simp [hf], hk⟩
          obtain ⟨pre, f', post, d1, d2, d3, d4⟩ := h2.drift k hkeps
          have hmem := get?_mem d4
          have hne : k ≠ c.1 := by
            intro hc
            rw [hc, hc1] at hke
            revert hke
            decide
          rcases List.mem_cons.1 hmem with hm | hm
          · exact hne (congrArg Prod.fst hm)
          · have h3 := hall _ hm
            rw [decide_eq_true_eq, hlen, d1] at h3
            cases pre with
            | nil =>
              rw [List.nil_append] at d1
              rw [(List.cons.inj d1).1] at hkg
              exact hkg d3
            | cons x xs =>
              simp at h3
              omega
        · intro hno c' hc'
          rw [decide_eq_true_eq, hlen]
          have hg := get?_of_mem hnk (show (c'.1, c'.2) ∈ c :: cs by simp [hc'])
          have hk : c'.1 ∈ Dict.keys (c :: cs) := List.mem_map.2 ⟨c', by simp [hc'], rfl⟩
          rw [hkeys] at hk
          rcases List.mem_append.1 hk with hk | hk
          · rcases List.mem_append.1 hk with hk | hk
            · have h3 := h2.par _ hk
              dsimp only at h3
              rw [h3] at hg
              rw [← Option.some.inj hg, List.length_map]
            · obtain ⟨a, b, hab, e⟩ := mem_covColumns.1 hk
              have h3 := h2.cov a b hab
              dsimp only at h3
              rw [← e, hg] at h3
              rw [Option.some.inj h3, List.length_map]
          · obtain ⟨pre, f, post, d1, d2, d3, d4⟩ := h2.drift _ hk
            dsimp only at d4
            rw [hg] at d4
            rw [Option.some.inj d4, List.length_map, d1]
            cases pre with
            | nil => rfl
            | cons x xs =>
              exfalso
              obtain ⟨rfl, rfl⟩ := List.cons.inj (show g :: l = x :: (xs ++ f :: post) from d1)
              exact hno ⟨f, by simp, c'.1, d3, ((h2.mem _).1 hk).1, d2 g (by simp)⟩
      split_ifs with hall
      · rw [hiff] at hall
        constructor
        · intro h; cases h
        · rintro ⟨_, g', l', e', hx⟩
          obtain ⟨rfl, rfl⟩ := List.cons.inj e'
          exact absurd hx hall
      · rw [hiff, not_not] at hall
        constructor
        · intro h
          exact ⟨(Except.error.inj h).symm, g, l, rfl, hall⟩
        · rintro ⟨rfl, _⟩
          rfl

/-- **C100**. What the numbers mean. If the objective is the sum of squares `Σ ((A p - d)_i / σ_i)²` and the inverse Hessian is exact, the
matrix used is the covariance of the best parameters `p = (AᵀWA)⁻¹AᵀW d` for measurements with independent errors `σ_i`
(both lists of errors given). -/
theorem C100_propagation {m n : ℕ} (A : Matrix (Fin m) (Fin n) ℝ) (σ : Fin m → ℝ) (hσ : ∀ i, σ i ≠ 0)
    (hessInv : Matrix (Fin n) (Fin n) ℝ)
    (hH : ((2 : ℝ) • (A.transpose * Matrix.diagonal (fun i => (σ i ^ 2)⁻¹) * A)) * hessInv = 1) (x y : List ℝ) (rms : ℝ) :
    ∃ B : Matrix (Fin n) (Fin m) ℝ,
      (∀ d, (A.transpose * Matrix.diagonal (fun i => (σ i ^ 2)⁻¹)).mulVec (A.mulVec (B.mulVec d) - d) = 0) ∧
      covariance hessInv (some x) (some y) rms = B * Matrix.diagonal (fun i => σ i ^ 2) * B.transpose := by
  set W := Matrix.diagonal (fun i => (σ i ^ 2)⁻¹) with hW
  set S := Matrix.diagonal (fun i => σ i ^ 2) with hS
  have hWS : W * S = 1 := by
    rw [hW, hS, Matrix.diagonal_mul_diagonal, ← Matrix.diagonal_one]
    congr 1
    funext i
    have := hσ i
    field_simp
  have hWt : W.transpose = W := Matrix.diagonal_transpose _
  set G := A.transpose * W * A with hG
  set C := (2 : ℝ) • hessInv with hC
  have hGC : G * C = 1 := by
    rw [hC, Matrix.mul_smul, ← Matrix.smul_mul]
    exact hH
  have hCG : C * G = 1 := mul_eq_one_comm.1 hGC
  have hGt : G.transpose = G := by
    rw [hG, Matrix.transpose_mul, Matrix.transpose_mul, hWt, Matrix.transpose_transpose, Matrix.mul_assoc]
  have hCt : C.transpose = C := by
    have h1 : C.transpose * G = 1 := by
      have := congrArg Matrix.transpose hGC
      rwa [Matrix.transpose_mul, hGt, Matrix.transpose_one] at this
    calc C.transpose = C.transpose * (G * C) := by rw [hGC, Matrix.mul_one]
      _ = C := by rw [← Matrix.mul_assoc, h1, Matrix.one_mul]
  refine ⟨C * (A.transpose * W), ?_, ?_⟩
  · intro d
    rw [Matrix.mulVec_sub, Matrix.mulVec_mulVec, Matrix.mulVec_mulVec, ← Matrix.mul_assoc, ← Matrix.mul_assoc, ← hG, hGC,
      Matrix.one_mul, sub_self]
  · have : covariance hessInv (some x) (some y) rms = C := by
      unfold covariance
      simp [hC]
    rw [this, Matrix.transpose_mul, Matrix.transpose_mul, hCt, hWt, Matrix.transpose_transpose]
    calc C = C * G * C := by rw [hCG, Matrix.one_mul]
      _ = C * (A.transpose * (W * S) * (W * A)) * C := by rw [hWS, Matrix.mul_one, hG]; simp only [Matrix.mul_assoc]
      _ = _ := by simp only [Matrix.mul_assoc]

/-- **C100** (finding). If either list of errors is missing the matrix is multiplied with half the square of the rms: with the x errors
given and the y errors not, the y errors are taken as 1 and the result is scaled all the same; with none (the only use in
the package) a perfect fit has errors 0. -/
theorem C100_scaled {n : ℕ} (hessInv : Matrix (Fin n) (Fin n) ℝ) (xerr yerr : Option (List ℝ)) (rms : ℝ) :
    ((xerr = none ∨ yerr = none) → covariance hessInv xerr yerr rms = rms ^ 2 • hessInv) ∧
    (xerr ≠ none → yerr ≠ none → covariance hessInv xerr yerr rms = (2 : ℝ) • hessInv) := by
  unfold covariance
  constructor
  · intro h
    dsimp only
    rw [if_pos h, smul_smul]
    congr 1
    ring
  · intro h1 h2
    dsimp only
    rw [if_neg (by simp [h1, h2])]

/-- The hypothesis of `C100_propagation`: two measurements of one number with errors 1 and 2; the variance is 4/5. -/
example : ((2 : ℝ) • ((!![1; 1] : Matrix (Fin 2) (Fin 1) ℝ).transpose * Matrix.diagonal (fun i => ((![1, 2] : Fin 2 → ℝ) i ^ 2)⁻¹) *
    (!![1; 1] : Matrix (Fin 2) (Fin 1) ℝ))) * (!![2 / 5] : Matrix (Fin 1) (Fin 1) ℝ) = 1 := by
  ext i j
  fin_cases i
  fin_cases j
  simp [Matrix.mul_apply, Fin.sum_univ_two]
  norm_num

/-- The hypotheses of `C100_table`: a fitted window and one where the fit failed; OFFSET_T and OFFSET_P are correlated. -/
example : ∃ t, table .static [] [⟨[("OFFSET_T".toList, 5), ("FLAGS".toList, 0)],
      covDict ["OFFSET_P".toList, "OFFSET_T".toList] ["SCALE_T".toList] fun i j => if i = j then 4 else 1⟩, ⟨[("FLAGS".toList, 4)], []⟩] = .ok t ∧
    t.get? "COV.OFFSET_T_STATIC.OFFSET_P_STATIC".toList = some [1, 0] ∧
    t.get? "ERR.OFFSET_T_STATIC".toList = some [2, 0] ∧
    t.get? "COV.OFFSET_T_STATIC.SCALE_T_STATIC".toList = none := by
  have hdict := C100_dictionary ["OFFSET_P".toList, "OFFSET_T".toList] ["SCALE_T".toList] (by decide) (by decide) (by decide)
    (by decide) (by decide) (fun i j => if i = j then 4 else 1) (by intro i j; simp only [eq_comm])
  have hempty : ∀ a b, cval [] a b = 0 := fun a b => rfl
  rcases h : table .static [] [⟨[("OFFSET_T".toList, 5), ("FLAGS".toList, 0)],
      covDict ["OFFSET_P".toList, "OFFSET_T".toList] ["SCALE_T".toList] fun i j => if i = j then 4 else 1⟩, ⟨[("FLAGS".toList, 4)], []⟩] with e | t
  · rw [C100_exit] at h
    obtain ⟨_, g, l, e1, f, hf, k, hk, hke, _⟩ := h
    obtain ⟨_, e2⟩ := List.cons.inj e1
    subst e2
    rw [List.mem_singleton] at hf
    subst hf
    simp only [Dict.keys, List.map_cons, List.map_nil, List.mem_singleton] at hk
    subst hk
    exact absurd hke (by decide)
  · refine ⟨t, rfl, ?_⟩
    obtain ⟨_, c2, c3⟩ := C100_table .static [] _ t (by simp) (by simp) (by
      intro f hf k hk hke
      exfalso
      rcases List.mem_cons.1 hf with rfl | hf
      · simp only [Dict.keys, List.map_cons, List.map_nil, List.mem_cons, List.not_mem_nil, or_false] at hk
        rcases hk with rfl | rfl <;> revert hke <;> decide
      · rw [List.mem_singleton] at hf
        subst hf
        simp only [Dict.keys, List.map_cons, List.map_nil, List.mem_singleton] at hk
        subst hk
        revert hke
        decide) h
    refine ⟨?_, ?_, ?_⟩
    · have h1 := (c3 2 3 (by omega) "OFFSET_T".toList "OFFSET_P".toList rfl rfl).2.1
      have h2 := hdict.1 1 0 "OFFSET_T".toList "OFFSET_P".toList rfl rfl
      have := h1 ⟨_, List.mem_cons_self, by dsimp only; rw [h2]; simp⟩
      simp only [List.map_cons, List.map_nil, h2, hempty] at this
      have e : "COV.OFFSET_T_STATIC.OFFSET_P_STATIC".toList = "COV.".toList ++ "OFFSET_T".toList ++ suffix .static ++ ".".toList ++
        "OFFSET_P".toList ++ suffix .static := by decide
      rw [e, this]
      simp
    · have h1 := c2 "OFFSET_T".toList (by decide)
      have h2 := hdict.1 1 1 "OFFSET_T".toList "OFFSET_T".toList rfl rfl
      simp only [List.map_cons, List.map_nil, h2, hempty] at h1
      have h4 : Real.sqrt 4 = 2 := by rw [show (4 : ℝ) = 2 ^ 2 by norm_num]; exact Real.sqrt_sq (by norm_num)
      have e : "ERR.OFFSET_T_STATIC".toList = "ERR.".toList ++ "OFFSET_T".toList ++ suffix .static := by decide
      rw [e, h1]
      simp [h4]
    · refine (c3 2 6 (by omega) "OFFSET_T".toList "SCALE_T".toList rfl rfl).1 ?_
      intro f hf
      rcases List.mem_cons.1 hf with rfl | hf
      · exact hdict.2 _ _ (by decide) (by decide) (.inr (by decide))
      · rw [List.mem_singleton] at hf
        subst hf
        rfl

end Verif.Props
